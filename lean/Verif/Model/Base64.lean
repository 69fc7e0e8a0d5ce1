import Verif.Model.Basic

/-! # Model of src/utils/base64.hpp

Bytes and characters are numbers below 256; a `std::string` is the list of the codes of
its characters. An entry of `sizeof(T) = L` bytes is a list of `L` bytes, a
`std::vector<T>` the list of its entries, stored contiguously. `char` is signed, as on the
platforms the library is built for: a character with code 128 or more converts to an
`unsigned` beyond every table. -/

namespace Bezman.Base64

/-- `char_encode_table`, src/utils/base64.hpp:51-56 -/
def charEncodeTable : List Nat :=
  (['A', 'B', 'C', 'D', 'E', 'F', 'G', 'H', 'I', 'J', 'K', 'L', 'M',
    'N', 'O', 'P', 'Q', 'R', 'S', 'T', 'U', 'V', 'W', 'X', 'Y', 'Z',
    'a', 'b', 'c', 'd', 'e', 'f', 'g', 'h', 'i', 'j', 'k', 'l', 'm',
    'n', 'o', 'p', 'q', 'r', 's', 't', 'u', 'v', 'w', 'x', 'y', 'z',
    '0', '1', '2', '3', '4', '5', '6', '7', '8', '9', '+', '/'] : List Char).map Char.toNat

/-- `ReverseCharEncodeTable_` and `char_decode_table`, src/utils/base64.hpp:65-76. -/
def charDecodeTable : M (List Nat) :=
  loop charEncodeTable.length (fun i t => do
    let c ← rd charEncodeTable i
    wr t c i) (List.replicate 256 0)

/-- the code of `=` -/
def pad : Nat := '='.toNat

/-- the conversion `static_cast<unsigned>(char)` for signed `char` -/
def charToUnsigned (c : Nat) : Nat := if c < 128 then c else 2 ^ 32 - 256 + c

/-- `Encode`, src/utils/base64.hpp:89-140. `byte i` is the read `vector_as_bytes[i]` and
`n` the number of bytes of the vector. `&data_vector[0]` of an empty vector is undefined
behaviour. -/
def encodeBytes (byte : Nat → M Nat) (n : Nat) : M (List Nat) := do
  if n = 0 then .error .ub
  else do
    let additional_padding_bytes := (3 - n % 3) % 3
    let number_of_groups := (n + additional_padding_bytes) / 3
    let s ← loop number_of_groups (fun i_group s => do
      let buffer_index := i_group * 3
      let b0 ← if buffer_index < n then byte (buffer_index + 0) else pure 0
      let b1 ← if buffer_index < n then byte (buffer_index + 1) else pure 0
      let b2 ← if buffer_index < n then byte (buffer_index + 2) else pure 0
      let c0 ← rd charEncodeTable ((b0 &&& 0xfc) >>> 2)
      let s ← wr s (i_group * 4 + 0) c0
      let c1 ← rd charEncodeTable (((b0 &&& 0x03) <<< 4) + ((b1 &&& 0xf0) >>> 4))
      let s ← wr s (i_group * 4 + 1) c1
      let c2 ← rd charEncodeTable (((b1 &&& 0x0f) <<< 2) + ((b2 &&& 0xc0) >>> 6))
      let s ← wr s (i_group * 4 + 2) c2
      let c3 ← rd charEncodeTable ((b2 &&& 0x3f) <<< 0)
      wr s (i_group * 4 + 3) c3) (List.replicate (number_of_groups * 4) 0)
    loop additional_padding_bytes (fun i s => wr s (number_of_groups * 4 - i - 1) pad) s

/-- `Encode` (src/utils/base64.hpp:89-140) when an access outside the vector is undefined
behaviour. -/
def encode (v : List (List Nat)) : M (List Nat) :=
  encodeBytes (fun i => rd v.flatten i) v.flatten.length

/-- `Encode` (src/utils/base64.hpp:89-140) on a machine where a read behind the end of the
vector returns whatever `mem` holds there. -/
def encodeMem (mem : Nat → Nat) (v : List (List Nat)) : M (List Nat) :=
  encodeBytes (fun i => pure (v.flatten.getD i (mem i))) v.flatten.length

/-- `Decode`, src/utils/base64.hpp:197-242, for entries of `L` bytes. The bytes of the new
vector are zero. `&return_value[0]` of an empty vector is undefined behaviour. -/
def decode (L : Nat) (base64string : List Nat) : M (List (List Nat)) := do
  assertM (base64string.length % 4 == 0)
  let number_of_groups := base64string.length / 4
  let number_of_output_values ← divU (number_of_groups * 3) L
  if number_of_output_values = 0 then .error .ub
  else do
    let table ← charDecodeTable
    let bytes ← loop number_of_groups (fun i_group bytes => do
      let buffer_index := i_group * 4
      let buffer ← loop 4 (fun i buffer => do
        let c ← rd base64string (buffer_index + i)
        let x ← if c ≠ pad then rd table (charToUnsigned c) else pure 255
        wr buffer i x) (List.replicate 4 0)
      let b0 ← rd buffer 0
      let b1 ← rd buffer 1
      let b2 ← rd buffer 2
      let b3 ← rd buffer 3
      let bytes ← if b1 ≠ 255 then
          wr bytes (i_group * 3) ((((b0 &&& 0x3f) <<< 2) + ((b1 &&& 0x30) >>> 4)) % 256)
        else pure bytes
      let bytes ← if b2 ≠ 255 then
          wr bytes (i_group * 3 + 1) ((((b1 &&& 0x0f) <<< 4) + ((b2 &&& 0x3c) >>> 2)) % 256)
        else pure bytes
      if b3 ≠ 255 then
          wr bytes (i_group * 3 + 2) ((((b2 &&& 0x03) <<< 6) + ((b3 &&& 0x3f) >>> 0)) % 256)
        else pure bytes) (List.replicate (number_of_output_values * L) 0)
    pure ((List.range number_of_output_values).map (fun j =>
      (List.range L).map (fun i => bytes.getD (j * L + i) 0)))

/-- the conversion loop of `Encode` for points, src/utils/base64.hpp:150-156; a point is
the list of its coordinates -/
def pointsToScalars (dimension : Nat) (data_vector : List (List (List Nat))) : M (List (List Nat)) :=
  loop data_vector.length (fun i_point c => 
    loop dimension (fun i_dim c => do
      let p ← rd data_vector i_point
      let x ← rd p i_dim
      wr c (i_point * dimension + i_dim) x) c) (List.replicate (dimension * data_vector.length) [])

/-- `Encode` for points, src/utils/base64.hpp:147-158 -/
def encodePointsMem (mem : Nat → Nat) (dimension : Nat) (data_vector : List (List (List Nat))) : M (List Nat) := do
  let c ← pointsToScalars dimension data_vector
  encodeMem mem c

/-- `Decode` for points, src/utils/base64.hpp:161-189. -/
def decodePoints (dimension L : Nat) (base64string : List Nat) : M (List (List (List Nat))) := do
  let data_vector ← decode L base64string
  let n_ctps ← divU data_vector.length dimension
  let m ← modU data_vector.length dimension
  assertM (m == 0)
  loop n_ctps (fun i_point ct_points =>
    loop dimension (fun i_dim ct_points => do
      let x ← rd data_vector (i_point * dimension + i_dim)
      let p ← rd ct_points i_point
      let p ← wr p i_dim x
      wr ct_points i_point p) ct_points)
    (List.replicate n_ctps (List.replicate dimension (List.replicate L 0)))

end Bezman.Base64
