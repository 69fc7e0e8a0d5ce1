import Verif.Model.Base64
import Verif.Spec.Base64
import Verif.Proofs.Basic
import Verif.Proofs.SplitMany
import Verif.Proofs.Bernstein
import Mathlib.Tactic.Ring
import Mathlib.Tactic.IntervalCases

namespace Bezman.Base64
open Spec

theorem table_rd : ∀ v, v < 64 → rd charEncodeTable v = .ok (base64Char v) := by decide
theorem char_ne_pad : ∀ v, v < 64 → base64Char v ≠ pad := by decide
theorem char_lt : ∀ v, v < 64 → base64Char v < 128 := by decide

private def tableCheck : M (List ℕ) → Bool
  | .ok T => T.length == 256 && (List.range 64).all (fun v => T[base64Char v]? == some v) && T.all (· < 64)
  | _ => false

private theorem table_check : tableCheck charDecodeTable = true := by decide +kernel

private theorem tableCheck_ok {t : M (List ℕ)} (h : tableCheck t = true) :
    ∃ T, t = .ok T ∧ T.length = 256 ∧ (∀ v, v < 64 → rd T (base64Char v) = .ok v) ∧ ∀ x ∈ T, x < 64 := by
  cases t with
  | ok T =>
    simp only [tableCheck, Bool.and_eq_true, beq_iff_eq, List.all_eq_true, List.mem_range, decide_eq_true_eq] at h
    exact ⟨T, rfl, h.1.1, fun v hv => rd_ok (h.1.2 v hv), h.2⟩
  | error e => cases h

theorem decodeTable_ok : ∃ T, charDecodeTable = .ok T ∧ T.length = 256 ∧ (∀ v, v < 64 → rd T (base64Char v) = .ok v) ∧
    ∀ x ∈ T, x < 64 := tableCheck_ok table_check

theorem e0 : ∀ b, b < 256 → (b &&& 0xfc) >>> 2 = b / 4 := by decide +kernel
theorem e1 : ∀ b, b < 256 → (b &&& 0x03) <<< 4 = b % 4 * 16 := by decide +kernel
theorem e1' : ∀ b, b < 256 → (b &&& 0xf0) >>> 4 = b / 16 := by decide +kernel
theorem e2 : ∀ b, b < 256 → (b &&& 0x0f) <<< 2 = b % 16 * 4 := by decide +kernel
theorem e2' : ∀ b, b < 256 → (b &&& 0xc0) >>> 6 = b / 64 := by decide +kernel
theorem e3 : ∀ b, b < 256 → (b &&& 0x3f) <<< 0 = b % 64 := by decide +kernel
theorem d0 : ∀ b, b < 64 → (b &&& 0x3f) <<< 2 = b * 4 := by decide +kernel
theorem d1 : ∀ b, b < 64 → (b &&& 0x30) >>> 4 = b / 16 := by decide +kernel
theorem d1' : ∀ b, b < 64 → (b &&& 0x0f) <<< 4 = b % 16 * 16 := by decide +kernel
theorem d2 : ∀ b, b < 64 → (b &&& 0x3c) >>> 2 = b / 4 := by decide +kernel
theorem d2' : ∀ b, b < 64 → (b &&& 0x03) <<< 6 = b % 4 * 64 := by decide +kernel
theorem d3 : ∀ b, b < 64 → (b &&& 0x3f) >>> 0 = b := by decide +kernel

theorem base64Char_inj : ∀ v w, v < 64 → w < 64 → base64Char v = base64Char w → v = w := by
  intro v w hv hw h
  obtain ⟨T, hT⟩ := decodeTable_ok
  have h3 := hT.2.2.1
  clear hT
  have h1 := h3 v hv
  rw [h, h3 w hw] at h1
  injection h1 with h1; exact h1.symm

/-- the characters before padding -/
def chars (B : ℕ → ℕ) (i : ℕ) : ℕ :=
  let j := i / 4
  match i % 4 with
  | 0 => base64Char (B (3 * j) / 4)
  | 1 => base64Char (B (3 * j) % 4 * 16 + B (3 * j + 1) / 16)
  | 2 => base64Char (B (3 * j + 1) % 16 * 4 + B (3 * j + 2) / 64)
  | _ => base64Char (B (3 * j + 2) % 64)

theorem chars0 (B : ℕ → ℕ) (j : ℕ) : chars B (j * 4 + 0) = base64Char (B (3 * j) / 4) := by
  unfold chars
  rw [show (j * 4 + 0) / 4 = j by omega, show (j * 4 + 0) % 4 = 0 by omega]; rfl
theorem chars1 (B : ℕ → ℕ) (j : ℕ) : chars B (j * 4 + 1) = base64Char (B (3 * j) % 4 * 16 + B (3 * j + 1) / 16) := by
  unfold chars
  rw [show (j * 4 + 1) / 4 = j by omega, show (j * 4 + 1) % 4 = 1 by omega]; rfl
theorem chars2 (B : ℕ → ℕ) (j : ℕ) : chars B (j * 4 + 2) = base64Char (B (3 * j + 1) % 16 * 4 + B (3 * j + 2) / 64) := by
  unfold chars
  rw [show (j * 4 + 2) / 4 = j by omega, show (j * 4 + 2) % 4 = 2 by omega]; rfl
theorem chars3 (B : ℕ → ℕ) (j : ℕ) : chars B (j * 4 + 3) = base64Char (B (3 * j + 2) % 64) := by
  unfold chars
  rw [show (j * 4 + 3) / 4 = j by omega, show (j * 4 + 3) % 4 = 3 by omega]; rfl

/-- number of padding characters -/
def padding (n : ℕ) : ℕ := (3 - n % 3) % 3
/-- number of groups -/
def groups (n : ℕ) : ℕ := (n + padding n) / 3

theorem groups_eq (n : ℕ) : groups n * 3 = n + padding n := by unfold groups padding; omega
theorem padding_lt (n : ℕ) : padding n < 3 := by unfold padding; omega


/-- one group -/
def encStep (byte : ℕ → M ℕ) (n k : ℕ) (s : List ℕ) : M (List ℕ) := do
  let buffer_index := k * 3
  let b0 ← if buffer_index < n then byte (buffer_index + 0) else pure 0
  let b1 ← if buffer_index < n then byte (buffer_index + 1) else pure 0
  let b2 ← if buffer_index < n then byte (buffer_index + 2) else pure 0
  let c0 ← rd charEncodeTable ((b0 &&& 0xfc) >>> 2)
  let s ← wr s (k * 4 + 0) c0
  let c1 ← rd charEncodeTable (((b0 &&& 0x03) <<< 4) + ((b1 &&& 0xf0) >>> 4))
  let s ← wr s (k * 4 + 1) c1
  let c2 ← rd charEncodeTable (((b1 &&& 0x0f) <<< 2) + ((b2 &&& 0xc0) >>> 6))
  let s ← wr s (k * 4 + 2) c2
  let c3 ← rd charEncodeTable ((b2 &&& 0x3f) <<< 0)
  wr s (k * 4 + 3) c3

theorem encodeBytes_eq {byte : ℕ → M ℕ} {n : ℕ} (hn : n ≠ 0) : encodeBytes byte n =
    (loop (groups n) (encStep byte n) (List.replicate (groups n * 4) 0) >>=
      fun s => loop (padding n) (fun i s => wr s (groups n * 4 - i - 1) pad) s) := by
  unfold encodeBytes
  rw [if_neg hn]
  rfl

theorem encStep_ok {byte : ℕ → M ℕ} {n k : ℕ} (hk : k * 3 < n) {b0 b1 b2 : ℕ} (h0 : byte (k * 3) = .ok b0)
    (h1 : byte (k * 3 + 1) = .ok b1) (h2 : byte (k * 3 + 2) = .ok b2) (l0 : b0 < 256) (l1 : b1 < 256) (l2 : b2 < 256)
    {s : List ℕ} (hs : k * 4 + 3 < s.length) :
    encStep byte n k s = .ok ((((s.set (k * 4 + 0) (base64Char (b0 / 4))).set (k * 4 + 1) (base64Char (b0 % 4 * 16 + b1 / 16))).set
      (k * 4 + 2) (base64Char (b1 % 16 * 4 + b2 / 64))).set (k * 4 + 3) (base64Char (b2 % 64))) := by
  unfold encStep
  simp only [hk, if_true]
  rw [show k * 3 + 0 = k * 3 by omega, h0]
  simp only [bind_ok]
  rw [h1]
  simp only [bind_ok]
  rw [h2]
  simp only [bind_ok]
  rw [e0 _ l0, e1 _ l0, e1' _ l1, e2 _ l1, e2' _ l2, e3 _ l2, table_rd _ (by omega)]
  simp only [bind_ok]
  rw [wr_ok _ (by omega)]
  simp only [bind_ok]
  rw [table_rd _ (by omega)]
  simp only [bind_ok]
  rw [wr_ok _ (by simp; omega)]
  simp only [bind_ok]
  rw [table_rd _ (by omega)]
  simp only [bind_ok]
  rw [wr_ok _ (by simp; omega)]
  simp only [bind_ok]
  rw [table_rd _ (by omega)]
  simp only [bind_ok]
  rw [wr_ok _ (by simp; omega)]

theorem encodeBytes_ok {byte : ℕ → M ℕ} {n : ℕ} (hn : n ≠ 0) (B : ℕ → ℕ) (hB : ∀ i, i < groups n * 3 → byte i = .ok (B i))
    (hlt : ∀ i, B i < 256) :
    encodeBytes byte n = .ok (tab (groups n * 4) (fun i => if i < groups n * 4 - padding n then chars B i else pad)) := by
  have hg := groups_eq n
  have hp := padding_lt n
  rw [encodeBytes_eq hn, replicate_eq_tab,
    loop_eq (fun k => tab (groups n * 4) (fun i => if i < k * 4 then chars B i else 0)) (by simp) (by
    intro k hk
    rw [encStep_ok (by omega) (hB _ (by omega)) (hB _ (by omega)) (hB _ (by omega)) (hlt _) (hlt _) (hlt _)
      (by simp; omega)]
    rw [set_tab, set_tab, set_tab, set_tab]
    congr 1
    apply tab_congr
    intro i hi
    by_cases h3 : i = k * 4 + 3
    · subst h3; rw [Function.update_self, if_pos (by omega), chars3, mul_comm 3 k]
    rw [Function.update_of_ne h3]
    by_cases h2 : i = k * 4 + 2
    · subst h2; rw [Function.update_self, if_pos (by omega), chars2, mul_comm 3 k]
    rw [Function.update_of_ne h2]
    by_cases h1 : i = k * 4 + 1
    · subst h1; rw [Function.update_self, if_pos (by omega), chars1, mul_comm 3 k]
    rw [Function.update_of_ne h1]
    by_cases h0 : i = k * 4 + 0
    · subst h0; rw [Function.update_self, if_pos (by omega), chars0, mul_comm 3 k]
    rw [Function.update_of_ne h0]
    simp only [show (i < (k + 1) * 4) = (i < k * 4) from propext ⟨fun h => by omega, fun h => by omega⟩])]
  simp only [bind_ok]
  rw [loop_eq (fun k => tab (groups n * 4) (fun i => if i < groups n * 4 - k then chars B i else pad))
    (by apply tab_congr; intro i hi; rw [if_pos hi, if_pos (by omega)]) (by
    intro k hk
    rw [wr_tab _ _ (by omega)]
    congr 1
    apply tab_congr
    intro i hi
    by_cases h : i = groups n * 4 - k - 1
    · subst h; rw [Function.update_self, if_neg (by omega)]
    · rw [Function.update_of_ne h]
      simp only [show (i < groups n * 4 - (k + 1)) = (i < groups n * 4 - k) from propext ⟨fun h => by omega, fun h => by omega⟩])]

/-- the read behind the end -/
theorem encodeBytes_ub {bytes : List ℕ} (hlt : ∀ x ∈ bytes, x < 256) (h : bytes.length % 3 ≠ 0) :
    encodeBytes (fun i => rd bytes i) bytes.length = .error .ub := by
  set n := bytes.length with hn
  have hg := groups_eq n
  have hp := padding_lt n
  have hp0 : padding n ≠ 0 := by unfold padding; omega
  rw [encodeBytes_eq (by omega), loop_inv_error (k := groups n - 1) (e := .ub) (P := fun _ s => s.length = groups n * 4)
    (by omega) (by simp)]
  · rfl
  · intro j hj s hs
    refine ⟨_, encStep_ok (by omega) (rd_getElem (by omega)) (rd_getElem (by omega)) (rd_getElem (by omega))
      (hlt _ (List.getElem_mem _)) (hlt _ (List.getElem_mem _)) (hlt _ (List.getElem_mem _)) (by omega), by simpa using hs⟩
  · intro s hs
    unfold encStep
    have hk : (groups n - 1) * 3 < n := by omega
    simp only [hk, if_true]
    rw [rd_getElem (by omega)]
    simp only [bind_ok]
    by_cases h1 : (groups n - 1) * 3 + 1 < n
    · rw [rd_getElem h1]
      simp only [bind_ok]
      rw [rd_ub (by omega)]
      rfl
    · rw [rd_ub (by omega)]
      rfl

/-! ## the standard encoding -/

theorem tab_cons {α : Type} (n : ℕ) (F : ℕ → α) : tab (n + 1) F = F 0 :: tab n (fun i => F (i + 1)) := by
  unfold tab
  rw [List.range_succ_eq_map, List.map_cons, List.map_map]; rfl

theorem rfc4648_eq (l : List ℕ) (hl : ∀ x ∈ l, x < 256) : rfc4648 l = tab (groups l.length * 4) (fun i =>
    if i < groups l.length * 4 - padding l.length then chars (fun i => l.getD i 0) i else pad) := by
  induction l using rfc4648.induct with
  | case1 a b c rest ih =>
    simp only [List.mem_cons, forall_eq_or_imp] at hl
    obtain ⟨ha, hb, hc, hr⟩ := hl
    have hp : padding (a :: b :: c :: rest).length = padding rest.length := by simp [padding]; omega
    have hg : groups (a :: b :: c :: rest).length * 4 = groups rest.length * 4 + 1 + 1 + 1 + 1 := by
      have h1 := groups_eq (a :: b :: c :: rest).length
      have h2 := groups_eq rest.length
      rw [hp] at h1
      simp only [List.length_cons] at h1 ⊢
      omega
    have hpl := padding_lt rest.length
    have hgr := groups_eq rest.length
    rw [hp, hg, tab_cons, tab_cons, tab_cons, tab_cons, rfc4648, ih hr]
    have hle : padding rest.length ≤ groups rest.length * 4 := by
      by_cases h : rest.length = 0
      · rw [h]; decide
      · omega
    congr 1
    · rw [if_pos (by omega)]
      simp only [chars, List.getD_cons_zero]
      congr 1; simp; omega
    congr 1
    · rw [if_pos (by omega)]
      simp only [chars]
      congr 1; simp; omega
    congr 1
    · rw [if_pos (by omega)]
      simp only [chars]
      congr 1; simp; omega
    congr 1
    · rw [if_pos (by omega)]
      simp only [chars]
      congr 1; simp; omega
    apply tab_congr
    intro i hi
    have e : (i + 1 + 1 + 1 + 1 < groups rest.length * 4 + 1 + 1 + 1 + 1 - padding rest.length)
        = (i < groups rest.length * 4 - padding rest.length) := propext ⟨fun h => by omega, fun h => by omega⟩
    simp only [e]
    congr 1
    simp only [chars]
    have e1 : (i + 1 + 1 + 1 + 1) / 4 = i / 4 + 1 := by omega
    have e2 : (i + 1 + 1 + 1 + 1) % 4 = i % 4 := by omega
    rw [e1, e2]
    have e3 : ∀ m, (a :: b :: c :: rest).getD (3 * (i / 4 + 1) + m) 0 = rest.getD (3 * (i / 4) + m) 0 := by
      intro m
      rw [show 3 * (i / 4 + 1) + m = 3 * (i / 4) + m + 1 + 1 + 1 by omega]
      simp
    have e4 := e3 0
    simp only [Nat.add_zero] at e4
    rw [e3, e3, e4]
  | case2 a b =>
    simp only [List.mem_cons, forall_eq_or_imp] at hl
    obtain ⟨ha, hb, -⟩ := hl
    rw [rfc4648]
    simp only [List.length_cons, List.length_nil, groups, padding, tab_cons]
    simp [tab, chars, pad]
    refine ⟨?_, ?_, ?_⟩ <;> (congr 1; omega)
  | case3 a =>
    simp only [List.mem_cons, forall_eq_or_imp] at hl
    obtain ⟨ha, -⟩ := hl
    rw [rfc4648]
    simp only [List.length_cons, List.length_nil, groups, padding, tab_cons]
    simp [tab, chars, pad]
    refine ⟨?_, ?_⟩ <;> (congr 1; omega)
  | case4 => rfl

/-! ## decoding -/

def lookup (T : List ℕ) (c : ℕ) : M ℕ := if c ≠ pad then rd T (charToUnsigned c) else pure 255

def decWrites (k b0 b1 b2 b3 : ℕ) (bytes : List ℕ) : M (List ℕ) := do
  let bytes ← if b1 ≠ 255 then wr bytes (k * 3) ((((b0 &&& 0x3f) <<< 2) + ((b1 &&& 0x30) >>> 4)) % 256) else pure bytes
  let bytes ← if b2 ≠ 255 then wr bytes (k * 3 + 1) ((((b1 &&& 0x0f) <<< 4) + ((b2 &&& 0x3c) >>> 2)) % 256) else pure bytes
  if b3 ≠ 255 then wr bytes (k * 3 + 2) ((((b2 &&& 0x03) <<< 6) + ((b3 &&& 0x3f) >>> 0)) % 256) else pure bytes

def decBuffer (T s : List ℕ) (k : ℕ) : M (List ℕ) :=
  loop 4 (fun i buffer => do
    let c ← rd s (k * 4 + i)
    let x ← lookup T c
    wr buffer i x) (List.replicate 4 0)

def decStep (T s : List ℕ) (k : ℕ) (bytes : List ℕ) : M (List ℕ) := do
  let buffer ← decBuffer T s k
  let b0 ← rd buffer 0
  let b1 ← rd buffer 1
  let b2 ← rd buffer 2
  let b3 ← rd buffer 3
  decWrites k b0 b1 b2 b3 bytes

theorem decode_eq {L : ℕ} {s T : List ℕ} (hT : charDecodeTable = .ok T) (hs : s.length % 4 = 0) (hL : 0 < L)
    (hN : s.length / 4 * 3 / L ≠ 0) :
    decode L s = (loop (s.length / 4) (decStep T s) (List.replicate (s.length / 4 * 3 / L * L) 0)) >>= fun bytes =>
      pure (tab (s.length / 4 * 3 / L) (fun j => tab L (fun i => bytes.getD (j * L + i) 0))) := by
  unfold decode
  rw [assertM_ok (by simp [hs])]
  simp only [bind_ok]
  rw [divU_ok hL]
  simp only [bind_ok]
  rw [if_neg hN, hT]
  simp only [bind_ok]
  clear hT
  congr 2
  funext k bytes
  unfold decStep decBuffer decWrites
  congr 1
  · congr 1
    funext i b
    congr 1
    funext c
    unfold lookup
    split <;> rfl

theorem decBuffer_ok {T s : List ℕ} {k : ℕ} {x : ℕ → ℕ} (h : ∀ i, i < 4 → ∃ c, rd s (k * 4 + i) = .ok c ∧ lookup T c = .ok (x i)) :
    decBuffer T s k = .ok (tab 4 x) := by
  unfold decBuffer
  rw [replicate_eq_tab, loop_eq (fun j => tab 4 (fun i => if i < j then x i else 0)) (by simp) (by
    intro j hj
    obtain ⟨c, h1, h2⟩ := h j hj
    rw [h1]
    simp only [bind_ok]
    rw [h2]
    simp only [bind_ok]
    rw [wr_tab _ _ hj]
    congr 1
    apply tab_congr
    intro i _
    by_cases hi : i = j
    · subst hi; simp
    · rw [Function.update_of_ne hi]
      simp only [show (i < j + 1) = (i < j) from propext ⟨fun h => by omega, fun h => by omega⟩])]
  rfl

theorem decStep_ok {T s : List ℕ} {k : ℕ} {x : ℕ → ℕ} (h : ∀ i, i < 4 → ∃ c, rd s (k * 4 + i) = .ok c ∧ lookup T c = .ok (x i))
    (bytes : List ℕ) : decStep T s k bytes = decWrites k (x 0) (x 1) (x 2) (x 3) bytes := by
  unfold decStep
  rw [decBuffer_ok h]
  simp only [bind_ok]
  rw [rd_tab _ (by omega)]
  simp only [bind_ok]
  rw [rd_tab _ (by omega)]
  simp only [bind_ok]
  rw [rd_tab _ (by omega)]
  simp only [bind_ok]
  rw [rd_tab _ (by omega)]
  rfl

/-- the digits before padding -/
def digits (B : ℕ → ℕ) (i : ℕ) : ℕ :=
  let j := i / 4
  match i % 4 with
  | 0 => B (3 * j) / 4
  | 1 => B (3 * j) % 4 * 16 + B (3 * j + 1) / 16
  | 2 => B (3 * j + 1) % 16 * 4 + B (3 * j + 2) / 64
  | _ => B (3 * j + 2) % 64

theorem digits0 (B : ℕ → ℕ) (j : ℕ) : digits B (j * 4 + 0) = B (j * 3) / 4 := by
  unfold digits
  rw [show (j * 4 + 0) / 4 = j by omega, show (j * 4 + 0) % 4 = 0 by omega, mul_comm j 3]
  rfl
theorem digits1 (B : ℕ → ℕ) (j : ℕ) : digits B (j * 4 + 1) = B (j * 3) % 4 * 16 + B (j * 3 + 1) / 16 := by
  unfold digits
  rw [show (j * 4 + 1) / 4 = j by omega, show (j * 4 + 1) % 4 = 1 by omega, mul_comm j 3]
  rfl
theorem digits2 (B : ℕ → ℕ) (j : ℕ) : digits B (j * 4 + 2) = B (j * 3 + 1) % 16 * 4 + B (j * 3 + 2) / 64 := by
  unfold digits
  rw [show (j * 4 + 2) / 4 = j by omega, show (j * 4 + 2) % 4 = 2 by omega, mul_comm j 3]
  rfl
theorem digits3 (B : ℕ → ℕ) (j : ℕ) : digits B (j * 4 + 3) = B (j * 3 + 2) % 64 := by
  unfold digits
  rw [show (j * 4 + 3) / 4 = j by omega, show (j * 4 + 3) % 4 = 3 by omega, mul_comm j 3]
  rfl

theorem chars_eq (B : ℕ → ℕ) (i : ℕ) : chars B i = base64Char (digits B i) := by
  unfold chars digits
  simp only []
  split <;> rfl

theorem digits_lt {B : ℕ → ℕ} (hlt : ∀ i, B i < 256) (i : ℕ) : digits B i < 64 := by
  have h1 := hlt (3 * (i / 4))
  have h2 := hlt (3 * (i / 4) + 1)
  have h3 := hlt (3 * (i / 4) + 2)
  unfold digits
  simp only []
  split <;> omega

/-- what `Decode` makes of the characters written by `Encode` -/
theorem decode_chars {L n : ℕ} (hn : n ≠ 0) (hL : 0 < L) (B : ℕ → ℕ) (hlt : ∀ i, B i < 256)
    (hfit : n ≤ (n + padding n) / L * L) :
    decode L (tab (groups n * 4) (fun i => if i < groups n * 4 - padding n then chars B i else pad))
      = .ok (tab ((n + padding n) / L) (fun j => tab L (fun i => if j * L + i < n then B (j * L + i) else 0))) := by
  obtain ⟨T, hT⟩ := decodeTable_ok
  have hT1 := hT.1
  have hT2 := hT.2.2.1
  have hg := groups_eq n
  have hp := padding_lt n
  set S := tab (groups n * 4) (fun i => if i < groups n * 4 - padding n then chars B i else pad) with hS
  have hlen : S.length = groups n * 4 := by simp [hS]
  have hg4 : S.length / 4 = groups n := by rw [hlen]; omega
  have hN : (n + padding n) / L ≠ 0 := by
    intro h; rw [h] at hfit; omega
  rw [decode_eq hT1 (by rw [hlen]; omega) hL (by rw [hg4, hg]; exact hN), hg4, hg, replicate_eq_tab]
  clear hT hT1
  have hlook : ∀ k, k < groups n → ∀ i, i < 4 → ∃ c, rd S (k * 4 + i) = .ok c ∧
      lookup T c = .ok (if k * 4 + i < groups n * 4 - padding n then digits B (k * 4 + i) else 255) := by
    intro k hk i hi
    refine ⟨_, rd_tab _ (by omega), ?_⟩
    unfold lookup
    by_cases h : k * 4 + i < groups n * 4 - padding n
    · rw [if_pos h, if_pos h, chars_eq, if_pos (char_ne_pad _ (digits_lt hlt _))]
      unfold charToUnsigned
      rw [if_pos (char_lt _ (digits_lt hlt _)), hT2 _ (digits_lt hlt _)]
    · rw [if_neg h, if_neg h]
      simp
  rw [loop_eq (fun k => tab ((n + padding n) / L * L) (fun i => if i < k * 3 ∧ i < n then B i else 0)) (by simp) (by
    intro k hk
    rw [decStep_ok (hlook k hk)]
    have b0 := hlt (k * 3)
    have b1 := hlt (k * 3 + 1)
    have b2 := hlt (k * 3 + 2)
    have hne : ∀ j, digits B j ≠ 255 := fun j => by have := digits_lt hlt j; omega
    unfold decWrites
    rw [if_pos (by omega : k * 4 + 0 < groups n * 4 - padding n), if_pos (by omega : k * 4 + 1 < groups n * 4 - padding n)]
    simp only [ne_eq, hne, not_false_eq_true, if_true]
    rw [wr_tab _ _ (by omega), d0 _ (digits_lt hlt _), d1 _ (digits_lt hlt _)]
    simp only [bind_ok]
    have v0 : (digits B (k * 4 + 0) * 4 + digits B (k * 4 + 1) / 16) % 256 = B (k * 3) := by
      rw [digits0, digits1]; omega
    have v1 : (digits B (k * 4 + 1) % 16 * 16 + digits B (k * 4 + 2) / 4) % 256 = B (k * 3 + 1) := by
      rw [digits1, digits2]; omega
    have v2 : (digits B (k * 4 + 2) % 4 * 64 + digits B (k * 4 + 3)) % 256 = B (k * 3 + 2) := by
      rw [digits2, digits3]; omega
    rw [v0, d1' _ (digits_lt hlt _)]
    by_cases h2 : k * 4 + 2 < groups n * 4 - padding n
    · simp only [h2, if_true, hne, not_false_eq_true]
      rw [wr_tab _ _ (by omega), d2 _ (digits_lt hlt _), v1, d2' _ (digits_lt hlt _)]
      simp only [bind_ok]
      by_cases h3 : k * 4 + 3 < groups n * 4 - padding n
      · simp only [h3, if_true, hne, not_false_eq_true]
        rw [wr_tab _ _ (by omega), d3 _ (digits_lt hlt _), v2]
        congr 1
        apply tab_congr
        intro i hi
        by_cases c2 : i = k * 3 + 2
        · subst c2; rw [Function.update_self, if_pos (by omega)]
        rw [Function.update_of_ne c2]
        by_cases c1 : i = k * 3 + 1
        · subst c1; rw [Function.update_self, if_pos (by omega)]
        rw [Function.update_of_ne c1]
        by_cases c0 : i = k * 3
        · subst c0; rw [Function.update_self, if_pos (by omega)]
        rw [Function.update_of_ne c0]
        simp only [show (i < (k + 1) * 3 ∧ i < n) = (i < k * 3 ∧ i < n) from propext ⟨fun h => by omega, fun h => by omega⟩]
      · simp only [h3, if_false, not_true_eq_false, pure_eq_ok]
        congr 1
        apply tab_congr
        intro i hi
        by_cases c1 : i = k * 3 + 1
        · subst c1; rw [Function.update_self, if_pos (by omega)]
        rw [Function.update_of_ne c1]
        by_cases c0 : i = k * 3
        · subst c0; rw [Function.update_self, if_pos (by omega)]
        rw [Function.update_of_ne c0]
        simp only [show (i < (k + 1) * 3 ∧ i < n) = (i < k * 3 ∧ i < n) from propext ⟨fun h => by omega, fun h => by omega⟩]
    · have h3 : ¬ k * 4 + 3 < groups n * 4 - padding n := by omega
      simp only [h2, h3, if_false, not_true_eq_false, pure_eq_ok, bind_ok]
      congr 1
      apply tab_congr
      intro i hi
      by_cases c0 : i = k * 3
      · subst c0; rw [Function.update_self, if_pos (by omega)]
      rw [Function.update_of_ne c0]
      simp only [show (i < (k + 1) * 3 ∧ i < n) = (i < k * 3 ∧ i < n) from propext ⟨fun h => by omega, fun h => by omega⟩])]
  simp only [bind_ok, pure_eq_ok]
  congr 1
  apply tab_congr
  intro j hj
  apply tab_congr
  intro i hi
  have hji : j * L + i < (n + padding n) / L * L := by
    calc j * L + i < j * L + L := by omega
      _ = (j + 1) * L := by ring
      _ ≤ _ := Nat.mul_le_mul_right _ hj
  rw [List.getD_eq_getElem?_getD, tab_getElem? _ hji]
  simp only [Option.getD_some]
  congr 1
  exact propext ⟨fun h => h.2, fun h => ⟨by omega, h⟩⟩

/-! ## entries -/

theorem _root_.Bezman.Spec.Entries.flatten_length {L : ℕ} {v : List (List ℕ)} (h : Entries L v) : v.flatten.length = v.length * L := by
  induction v with
  | nil => simp
  | cons a v ih =>
    rw [List.flatten_cons, List.length_append, ih (fun e he => h e (List.mem_cons_of_mem _ he)),
      (h a List.mem_cons_self).1, List.length_cons]
    ring

theorem _root_.Bezman.Spec.Entries.flatten_lt {L : ℕ} {v : List (List ℕ)} (h : Entries L v) : ∀ x ∈ v.flatten, x < 256 := by
  intro x hx
  obtain ⟨e, he, hxe⟩ := List.mem_flatten.mp hx
  exact (h e he).2 x hxe

theorem _root_.Bezman.Spec.Entries.tab_flatten {L : ℕ} {v : List (List ℕ)} (h : Entries L v) (d : ℕ → ℕ) :
    tab v.length (fun j => tab L (fun i => v.flatten.getD (j * L + i) (d (j * L + i)))) = v := by
  induction v generalizing d with
  | nil => rfl
  | cons a v ih =>
    have hv : Entries L v := fun e he => h e (List.mem_cons_of_mem _ he)
    have ha := (h a List.mem_cons_self).1
    rw [List.length_cons, tab_cons]
    congr 1
    · symm
      apply eq_tab_of _ ha
      intro i hi
      rw [Nat.zero_mul, Nat.zero_add, List.getD_eq_getElem?_getD, List.flatten_cons, List.getElem?_append_left (by omega),
        List.getElem?_eq_getElem (by omega)]
      rfl
    · refine Eq.trans ?_ (ih hv (fun i => d (L + i)))
      apply tab_congr
      intro j hj
      apply tab_congr
      intro i hi
      have e1 : (j + 1) * L + i = L + (j * L + i) := by ring
      rw [e1, List.getD_eq_getElem?_getD, List.flatten_cons, List.getElem?_append_right (by omega), ha,
        Nat.add_sub_cancel_left, ← List.getD_eq_getElem?_getD]

theorem _root_.Bezman.Spec.Entries.tab_flatten' {L : ℕ} {v : List (List ℕ)} (h : Entries L v) (hL : 0 < L) (m : ℕ) (d : ℕ → ℕ) :
    tab (v.length + m) (fun j => tab L (fun i => if j * L + i < v.length * L then v.flatten.getD (j * L + i) (d (j * L + i)) else 0))
      = v ++ List.replicate m (List.replicate L 0) := by
  apply List.ext_getElem?
  intro j
  by_cases hj : j < v.length
  · rw [List.getElem?_append_left hj, tab_getElem? _ (by omega)]
    conv_rhs => rw [← h.tab_flatten d]
    rw [tab_getElem? _ hj]
    congr 1
    apply tab_congr
    intro i hi
    rw [if_pos]
    calc j * L + i < j * L + L := by omega
      _ = (j + 1) * L := by ring
      _ ≤ _ := Nat.mul_le_mul_right _ hj
  · rw [List.getElem?_append_right (by omega)]
    by_cases hj2 : j < v.length + m
    · rw [tab_getElem? _ hj2, List.getElem?_replicate, if_pos (by omega), replicate_eq_tab]
      congr 1
      apply tab_congr
      intro i hi
      rw [if_neg]
      have : v.length * L ≤ j * L := Nat.mul_le_mul_right _ (by omega)
      omega
    · rw [List.getElem?_eq_none (by simp; omega), List.getElem?_eq_none (by simp; omega)]

/-- decoding the characters of `v` -/
theorem decode_entries {L : ℕ} {v : List (List ℕ)} (hL : 0 < L) (hv : Entries L v) (hv0 : v ≠ []) (mem : ℕ → ℕ)
    (hmem : ∀ i, mem i < 256) :
    decode L (tab (groups (v.length * L) * 4) (fun i => if i < groups (v.length * L) * 4 - padding (v.length * L) then
        chars (fun i => v.flatten.getD i (mem i)) i else pad))
      = .ok (v ++ List.replicate (padding (v.length * L) / L) (List.replicate L 0)) := by
  have hlen : 0 < v.length := List.length_pos_iff.mpr hv0
  have hn : 0 < v.length * L := Nat.mul_pos hlen hL
  have hlt : ∀ i, v.flatten.getD i (mem i) < 256 := by
    intro i
    rw [List.getD_eq_getElem?_getD]
    by_cases hi : i < v.flatten.length
    · rw [List.getElem?_eq_getElem hi]; exact hv.flatten_lt _ (List.getElem_mem _)
    · rw [List.getElem?_eq_none (by omega)]; exact hmem i
  have hdiv : (v.length * L + padding (v.length * L)) / L = v.length + padding (v.length * L) / L := by
    rw [Nat.add_comm, Nat.add_mul_div_right _ _ hL, Nat.add_comm]
  rw [decode_chars (by omega) hL _ hlt (by rw [hdiv]; exact Nat.mul_le_mul_right _ (Nat.le_add_right _ _)), hdiv,
    hv.tab_flatten' hL]

theorem encodeMem_ok {L : ℕ} {v : List (List ℕ)} (hL : 0 < L) (hv : Entries L v) (hv0 : v ≠ []) (mem : ℕ → ℕ)
    (hmem : ∀ i, mem i < 256) : encodeMem mem v =
      .ok (tab (groups (v.length * L) * 4) (fun i => if i < groups (v.length * L) * 4 - padding (v.length * L) then
        chars (fun i => v.flatten.getD i (mem i)) i else pad)) := by
  have hlen : 0 < v.length := List.length_pos_iff.mpr hv0
  have hn : 0 < v.length * L := Nat.mul_pos hlen hL
  unfold encodeMem
  rw [hv.flatten_length]
  apply encodeBytes_ok (by omega)
  · intro i _; rfl
  · intro i
    rw [List.getD_eq_getElem?_getD]
    by_cases hi : i < v.flatten.length
    · rw [List.getElem?_eq_getElem hi]; exact hv.flatten_lt _ (List.getElem_mem _)
    · rw [List.getElem?_eq_none (by omega)]; exact hmem i

/-! ## arbitrary strings -/

theorem loop_dich {σ : Type} {n : ℕ} {f : ℕ → σ → M σ} {s : σ} {e : Err} (P : σ → Prop) (Q : ℕ → Prop) (h0 : P s)
    (hpos : ∀ k, k < n → ∀ s, P s → Q k → ∃ s', f k s = .ok s' ∧ P s')
    (hneg : ∀ k, k < n → ∀ s, P s → ¬ Q k → f k s = .error e) :
    ((∀ k, k < n → Q k) → ∃ s', loop n f s = .ok s' ∧ P s') ∧ ((¬ ∀ k, k < n → Q k) → loop n f s = .error e) := by
  induction n with
  | zero => exact ⟨fun _ => ⟨s, rfl, h0⟩, fun h => absurd (fun k hk => absurd hk (Nat.not_lt_zero _)) h⟩
  | succ n ih =>
    obtain ⟨i1, i2⟩ := ih (fun k hk => hpos k (Nat.lt_succ_of_lt hk)) (fun k hk => hneg k (Nat.lt_succ_of_lt hk))
    constructor
    · intro h
      obtain ⟨s1, h1, h2⟩ := i1 (fun k hk => h k (Nat.lt_succ_of_lt hk))
      obtain ⟨s2, h3, h4⟩ := hpos n (Nat.lt_succ_self n) s1 h2 (h n (Nat.lt_succ_self n))
      exact ⟨s2, by rw [loop_succ, h1]; exact h3, h4⟩
    · intro h
      rw [loop_succ]
      by_cases hq : ∀ k, k < n → Q k
      · obtain ⟨s1, h1, h2⟩ := i1 hq
        rw [h1]
        apply hneg n (Nat.lt_succ_self n) s1 h2
        intro hn
        apply h
        intro k hk
        rcases Nat.lt_succ_iff_lt_or_eq.mp hk with h | h
        · exact hq k h
        · rw [h]; exact hn
      · rw [i2 hq]; rfl

theorem decWrites_dich (k b0 b1 b2 b3 : ℕ) (bytes : List ℕ) :
    ((b1 ≠ 255 → k * 3 < bytes.length) ∧ (b2 ≠ 255 → k * 3 + 1 < bytes.length) ∧ (b3 ≠ 255 → k * 3 + 2 < bytes.length) →
      ∃ r, decWrites k b0 b1 b2 b3 bytes = .ok r ∧ r.length = bytes.length) ∧
    (¬ ((b1 ≠ 255 → k * 3 < bytes.length) ∧ (b2 ≠ 255 → k * 3 + 1 < bytes.length) ∧ (b3 ≠ 255 → k * 3 + 2 < bytes.length)) →
      decWrites k b0 b1 b2 b3 bytes = .error .ub) := by
  unfold decWrites
  by_cases c1 : b1 = 255 <;> by_cases c2 : b2 = 255 <;> by_cases c3 : b3 = 255 <;>
    by_cases l1 : k * 3 < bytes.length <;> by_cases l2 : k * 3 + 1 < bytes.length <;> by_cases l3 : k * 3 + 2 < bytes.length <;>
    simp [c1, c2, c3, l1, l2, l3, wr]

theorem lookup_dich {T : List ℕ} (hl : T.length = 256) (hT : ∀ x ∈ T, x < 64) {c : ℕ} (hc : c < 256) :
    ((c ≠ pad → c < 128) → ∃ x, lookup T c = .ok x ∧ (x ≠ 255 ↔ c ≠ pad)) ∧
    (¬ (c ≠ pad → c < 128) → lookup T c = .error .ub) := by
  unfold lookup charToUnsigned
  constructor
  · intro h
    by_cases hp : c = pad
    · exact ⟨255, by simp [hp], by simp [hp]⟩
    · have := h hp
      rw [if_pos hp, if_pos this, rd_getElem (by omega)]
      refine ⟨_, rfl, ?_⟩
      have := hT _ (List.getElem_mem (by omega : c < T.length))
      simp only [ne_eq, hp, not_false_eq_true, iff_true]
      omega
  · intro h
    obtain ⟨h1, h2⟩ := _root_.not_imp.mp h
    rw [if_pos h1, if_neg h2, rd_ub (by omega)]

theorem decBuffer_ub {T s : List ℕ} {k j : ℕ} (hj : j < 4) {x : ℕ → ℕ}
    (h : ∀ i, i < j → ∃ c, rd s (k * 4 + i) = .ok c ∧ lookup T c = .ok (x i))
    (he : ∃ c, rd s (k * 4 + j) = .ok c ∧ lookup T c = .error .ub) :
    decBuffer T s k = .error .ub := by
  unfold decBuffer
  apply loop_inv_error (k := j) (fun _ b => b.length = 4) hj (by simp)
  · intro i hi b hb
    obtain ⟨c, h1, h2⟩ := h i hi
    rw [h1]
    simp only [bind_ok]
    rw [h2]
    simp only [bind_ok]
    rw [wr_ok _ (by omega)]
    exact ⟨_, rfl, by simpa using hb⟩
  · intro b hb
    obtain ⟨c, h1, h2⟩ := he
    rw [h1]
    simp only [bind_ok]
    rw [h2]
    rfl

theorem decStep_dich {T s : List ℕ} (hl : T.length = 256) (hT : ∀ x ∈ T, x < 64) (hs : ∀ c ∈ s, c < 256) {k size : ℕ}
    (hk : k * 4 + 3 < s.length) {bytes : List ℕ} (hb : bytes.length = size) :
    ((∀ i c, i < 4 → s[k * 4 + i]? = some c → c ≠ pad → c < 128 ∧ (i ≠ 0 → k * 3 + (i - 1) < size)) →
      ∃ r, decStep T s k bytes = .ok r ∧ r.length = size) ∧
    ((¬ ∀ i c, i < 4 → s[k * 4 + i]? = some c → c ≠ pad → c < 128 ∧ (i ≠ 0 → k * 3 + (i - 1) < size)) →
      decStep T s k bytes = .error .ub) := by
  subst hb
  have hread : ∀ i, i < 4 → ∃ c, s[k * 4 + i]? = some c ∧ rd s (k * 4 + i) = .ok c ∧ c < 256 := fun i hi =>
    ⟨s[k * 4 + i]'(by omega), List.getElem?_eq_getElem (by omega), rd_getElem (by omega), hs _ (List.getElem_mem _)⟩
  choose! C hC1 hC2 hC3 using hread
  by_cases hall : ∀ i, i < 4 → (C i ≠ pad → C i < 128)
  · have hx : ∀ i, i < 4 → ∃ x, lookup T (C i) = .ok x ∧ (x ≠ 255 ↔ C i ≠ pad) := fun i hi =>
      (lookup_dich hl hT (hC3 i hi)).1 (hall i hi)
    choose! x hx1 hx2 using hx
    rw [decStep_ok (x := x) (fun i hi => ⟨C i, hC2 i hi, hx1 i hi⟩)]
    have hiff : (∀ i c, i < 4 → s[k * 4 + i]? = some c → c ≠ pad → c < 128 ∧ (i ≠ 0 → k * 3 + (i - 1) < bytes.length)) ↔
        ((x 1 ≠ 255 → k * 3 < bytes.length) ∧ (x 2 ≠ 255 → k * 3 + 1 < bytes.length) ∧ (x 3 ≠ 255 → k * 3 + 2 < bytes.length)) := by
      constructor
      · intro h
        exact ⟨fun h1 => (h 1 _ (by omega) (hC1 1 (by omega)) ((hx2 1 (by omega)).mp h1)).2 (by omega),
          fun h1 => (h 2 _ (by omega) (hC1 2 (by omega)) ((hx2 2 (by omega)).mp h1)).2 (by omega),
          fun h1 => (h 3 _ (by omega) (hC1 3 (by omega)) ((hx2 3 (by omega)).mp h1)).2 (by omega)⟩
      · rintro ⟨h1, h2, h3⟩ i c hi hc hp
        have : c = C i := by rw [hC1 i hi] at hc; exact (Option.some.inj hc).symm
        subst this
        refine ⟨hall i hi hp, fun h0 => ?_⟩
        have h4 := (hx2 i hi).mpr hp
        have : i = 1 ∨ i = 2 ∨ i = 3 := by omega
        rcases this with h | h | h
        · subst h; exact h1 h4
        · subst h; exact h2 h4
        · subst h; exact h3 h4
    rw [hiff]
    exact decWrites_dich _ _ _ _ _ _
  · refine ⟨fun h => absurd (fun i hi hp => (h i _ hi (hC1 i hi) hp).1) hall, fun _ => ?_⟩
    -- the first bad character
    have hex : ∃ j, j < 4 ∧ ¬ (C j ≠ pad → C j < 128) ∧ ∀ i, i < j → (C i ≠ pad → C i < 128) := by
      push Not at hall
      classical
      have hex : ∃ j, ¬ (j < 4 → C j ≠ pad → C j < 128) := by
        obtain ⟨j, h1, h2, h3⟩ := hall
        exact ⟨j, fun h => absurd (h h1 h2) (by omega)⟩
      refine ⟨Nat.find hex, ?_, ?_, ?_⟩
      · exact (_root_.not_imp.mp (Nat.find_spec hex)).1
      · exact (_root_.not_imp.mp (Nat.find_spec hex)).2
      · intro i hi
        have h1 := not_not.mp (Nat.find_min hex hi)
        exact h1 (lt_trans hi (_root_.not_imp.mp (Nat.find_spec hex)).1)
    obtain ⟨j, hj, hbad, hgood⟩ := hex
    have hx : ∀ i, i < j → ∃ x, lookup T (C i) = .ok x := fun i hi => by
      obtain ⟨x, h, _⟩ := (lookup_dich hl hT (hC3 i (by omega))).1 (hgood i hi)
      exact ⟨x, h⟩
    choose! x hx1 using hx
    unfold decStep
    rw [decBuffer_ub hj (x := x) (fun i hi => ⟨C i, hC2 i (by omega), hx1 i hi⟩)
      ⟨C j, hC2 j hj, (lookup_dich hl hT (hC3 j hj)).2 hbad⟩]
    rfl

theorem decodable_iff {size : ℕ} {s : List ℕ} (hs : s.length % 4 = 0) : Decodable size s ↔
    ∀ k, k < s.length / 4 → ∀ i c, i < 4 → s[k * 4 + i]? = some c → c ≠ pad → c < 128 ∧ (i ≠ 0 → k * 3 + (i - 1) < size) := by
  constructor
  · intro h k hk i c hi hc hp
    have := h (k * 4 + i) c hc hp
    rw [show (k * 4 + i) % 4 = i by omega, show (k * 4 + i) / 4 = k by omega] at this
    exact this
  · intro h i c hc hp
    have hi : i < s.length := (List.getElem?_eq_some_iff.mp hc).1
    have h1 := h (i / 4) (by omega) (i % 4) c (by omega) (by rw [show i / 4 * 4 + i % 4 = i by omega]; exact hc) hp
    exact h1

theorem decode_dich {L : ℕ} {s : List ℕ} (hL : 0 < L) (hs : s.length % 4 = 0) (h256 : ∀ c ∈ s, c < 256) :
    (L ≤ s.length / 4 * 3 ∧ Decodable (s.length / 4 * 3 / L * L) s → ∃ v, decode L s = .ok v ∧ v.length = s.length / 4 * 3 / L) ∧
    (¬ (L ≤ s.length / 4 * 3 ∧ Decodable (s.length / 4 * 3 / L * L) s) → decode L s = .error .ub) := by
  obtain ⟨T, hT⟩ := decodeTable_ok
  have hT1 := hT.1
  have hT2 := hT.2.1
  have hT3 := hT.2.2.2
  by_cases hN : s.length / 4 * 3 / L = 0
  · have hlt : s.length / 4 * 3 < L := (Nat.div_eq_zero_iff.mp hN).resolve_left (by omega)
    refine ⟨fun h => absurd h.1 (by omega), fun _ => ?_⟩
    unfold decode
    rw [assertM_ok (by simp [hs])]
    simp only [bind_ok]
    rw [divU_ok hL]
    simp only [bind_ok]
    rw [if_pos hN]
  · have hle : L ≤ s.length / 4 * 3 := by
      by_contra h
      exact hN (Nat.div_eq_of_lt (by omega))
    rw [decode_eq hT1 hs hL hN]
    clear hT1 hT
    simp only [hle, true_and, decodable_iff hs]
    have key := loop_dich (n := s.length / 4) (f := decStep T s) (s := List.replicate (s.length / 4 * 3 / L * L) 0) (e := .ub)
      (P := fun b => b.length = s.length / 4 * 3 / L * L)
      (Q := fun k => ∀ i c, i < 4 → s[k * 4 + i]? = some c → c ≠ pad → c < 128 ∧ (i ≠ 0 → k * 3 + (i - 1) < s.length / 4 * 3 / L * L))
      (by simp) (fun k hk b hb hq => (decStep_dich hT2 hT3 h256 (by omega) hb).1 hq)
      (fun k hk b hb hq => (decStep_dich hT2 hT3 h256 (by omega) hb).2 hq)
    constructor
    · intro h
      obtain ⟨b, hb, _⟩ := key.1 h
      rw [hb]
      exact ⟨_, rfl, by simp⟩
    · intro h
      rw [key.2 h]
      rfl

/-! ## points -/

theorem flatten_tab {α : Type} (m d : ℕ) (Q : ℕ → ℕ → α) :
    (tab m (fun j => tab d (Q j))).flatten = tab (m * d) (fun i => Q (i / d) (i % d)) := by
  apply eq_tab_of
  · induction m with
    | zero => simp [tab]
    | succ m ih => rw [tab_succ, List.flatten_append, List.length_append, ih]; simp; ring
  · induction m with
    | zero => intro i hi; omega
    | succ m ih =>
      intro i hi
      have hlen : ∀ m, (tab m (fun j => tab d (Q j))).flatten.length = m * d := by
        intro m
        induction m with
        | zero => simp [tab]
        | succ m ih => rw [tab_succ, List.flatten_append, List.length_append, ih]; simp; ring
      rw [tab_succ, List.flatten_append]
      by_cases h : i < m * d
      · rw [List.getElem?_append_left (by rw [hlen]; exact h), ih i h]
      · have e : (m + 1) * d = m * d + d := by ring
        rw [List.getElem?_append_right (by rw [hlen]; omega), hlen, List.flatten_singleton, tab_getElem? _ (by omega)]
        have hi2 : i = (i - m * d) + d * m := by rw [mul_comm d m]; omega
        have hd : 0 < d := by omega
        congr 1
        have h1 : i / d = m := by
          rw [hi2, Nat.add_mul_div_left _ _ hd, Nat.div_eq_of_lt (by omega)]; omega
        have h2 : i % d = i - m * d := by
          conv_lhs => rw [hi2]
          rw [Nat.add_mul_mod_self_left, Nat.mod_eq_of_lt (by omega)]
        rw [h1, h2]

theorem pointsToScalars_ok {d : ℕ} {pts : List (List (List ℕ))} (hp : ∀ p ∈ pts, p.length = d) :
    pointsToScalars d pts = .ok pts.flatten := by
  have hrow : ∀ j, j < pts.length → pts[j]? = some (tab d (fun i => (pts.getD j []).getD i [])) := by
    intro j hj
    rw [List.getElem?_eq_getElem hj]
    congr 1
    have := hp _ (List.getElem_mem hj)
    apply eq_tab_of _ this
    intro i hi
    rw [List.getD_eq_getElem?_getD, List.getD_eq_getElem?_getD, List.getElem?_eq_getElem hj, Option.getD_some,
      List.getElem?_eq_getElem (by omega)]
    rfl
  have heq : pts = tab pts.length (fun j => tab d (fun i => (pts.getD j []).getD i [])) := eq_tab_of _ rfl hrow
  have hflat := congrArg List.flatten heq
  rw [flatten_tab] at hflat
  unfold pointsToScalars
  rw [replicate_eq_tab, loop_eq (fun k => tab (d * pts.length) (fun i => if i < k * d then (pts.getD (i / d) []).getD (i % d) [] else []))
    (by simp) (by
      intro k hk
      rw [loop_eq (fun j => tab (d * pts.length) (fun i => if i < k * d + j then (pts.getD (i / d) []).getD (i % d) [] else []))
        (by simp) (by
          intro j hj
          rw [rd_ok (hrow k hk)]
          simp only [bind_ok]
          rw [rd_tab _ hj]
          simp only [bind_ok]
          have hkd : (k + 1) * d ≤ pts.length * d := Nat.mul_le_mul_right _ hk
          have e : (k + 1) * d = k * d + d := by ring
          rw [wr_tab _ _ (by rw [mul_comm d]; omega)]
          congr 1
          apply tab_congr
          intro i hi
          by_cases h : i = k * d + j
          · subst h
            have hd : 0 < d := by omega
            have h1 : (k * d + j) / d = k := by
              rw [Nat.add_comm, Nat.add_mul_div_right _ _ hd, Nat.div_eq_of_lt hj]; omega
            have h2 : (k * d + j) % d = j := by
              rw [Nat.add_comm, Nat.add_mul_mod_self_right, Nat.mod_eq_of_lt hj]
            rw [Function.update_self, if_pos (by omega), h1, h2]
          · rw [Function.update_of_ne h]
            simp only [show (i < k * d + (j + 1)) = (i < k * d + j) from propext ⟨fun h => by omega, fun h => by omega⟩])]
      have e : (k + 1) * d = k * d + d := by ring
      rw [e])]
  rw [hflat, mul_comm d]
  congr 1
  apply tab_congr
  intro i hi
  rw [if_pos hi]

/-- the loop that distributes the coordinates; a remainder is never read -/
theorem decodePoints_loop (d L : ℕ) (w : List (List ℕ)) :
    loop (w.length / d) (fun i_point ct_points =>
      loop d (fun i_dim ct_points => do
        let x ← rd w (i_point * d + i_dim)
        let p ← rd ct_points i_point
        let p ← wr p i_dim x
        wr ct_points i_point p) ct_points)
      (List.replicate (w.length / d) (List.replicate d (List.replicate L 0))) =
    .ok (tab (w.length / d) (fun j => tab d (fun i => w.getD (j * d + i) []))) := by
  have hle : w.length / d * d ≤ w.length := Nat.div_mul_le_self _ _
  rw [replicate_eq_tab, replicate_eq_tab, loop_eq (fun k => tab (w.length / d) (fun j => tab d (fun i =>
      if j < k then w.getD (j * d + i) [] else List.replicate L 0))) (by simp) (by
    intro k hk
    rw [loop_eq (fun e => tab (w.length / d) (fun j => tab d (fun i =>
      if j < k ∨ (j = k ∧ i < e) then w.getD (j * d + i) [] else List.replicate L 0))) (by simp) (by
        intro e he
        have hkd : (k + 1) * d ≤ w.length / d * d := Nat.mul_le_mul_right _ hk
        have e1 : (k + 1) * d = k * d + d := by ring
        rw [rd_getElem (by omega)]
        simp only [bind_ok]
        rw [rd_tab _ hk]
        simp only [bind_ok]
        rw [wr_tab _ _ he]
        simp only [bind_ok]
        rw [wr_tab _ _ hk]
        congr 1
        apply tab_congr
        intro j hj
        by_cases hjk : j = k
        · subst hjk
          rw [Function.update_self]
          apply tab_congr
          intro i hi
          by_cases hie : i = e
          · subst hie
            rw [Function.update_self, if_pos (by omega), List.getD_eq_getElem?_getD, List.getElem?_eq_getElem (by omega)]
            rfl
          · rw [Function.update_of_ne hie]
            have hh : i < e + 1 ↔ i < e := by omega
            simp only [hh]
        · rw [Function.update_of_ne hjk]
          apply tab_congr
          intro i hi
          simp only [show (j < k ∨ j = k ∧ i < e + 1) = (j < k ∨ j = k ∧ i < e) from propext ⟨fun h => by omega, fun h => by omega⟩])]
    congr 1
    apply tab_congr
    intro j hj
    apply tab_congr
    intro i hi
    simp only [show (j < k ∨ j = k ∧ i < d) = (j < k + 1) from propext ⟨fun h => by omega, fun h => by omega⟩])]
  congr 1
  apply tab_congr
  intro j hj
  simp only [hj, if_true]

theorem decodePoints_ok {d L : ℕ} (hd : 0 < d) {s : List ℕ} {w : List (List ℕ)} (hw : decode L s = .ok w) (hm : w.length % d = 0) :
    decodePoints d L s = .ok (tab (w.length / d) (fun j => tab d (fun i => w.getD (j * d + i) []))) := by
  unfold decodePoints
  rw [hw]
  simp only [bind_ok]
  rw [divU_ok hd]
  simp only [bind_ok]
  rw [modU_ok hd]
  simp only [bind_ok]
  rw [assertM_ok (by simp [hm])]
  simp only [bind_ok]
  exact decodePoints_loop d L w

theorem decodePoints_rejects {d L : ℕ} (hd : 0 < d) {s : List ℕ} {w : List (List ℕ)} (hw : decode L s = .ok w)
    (hm : w.length % d ≠ 0) : decodePoints d L s = .error .assertFail := by
  unfold decodePoints
  rw [hw]
  simp only [bind_ok]
  rw [divU_ok hd]
  simp only [bind_ok]
  rw [modU_ok hd]
  simp only [bind_ok]
  unfold assertM
  rw [if_neg (by simp [hm])]
  rfl

theorem tab_points {d : ℕ} {pts : List (List (List ℕ))} (hp : ∀ p ∈ pts, p.length = d) :
    tab pts.length (fun j => tab d (fun i => pts.flatten.getD (j * d + i) [])) = pts := by
  induction pts with
  | nil => rfl
  | cons a v ih =>
    have ha := hp a List.mem_cons_self
    rw [List.length_cons, tab_cons]
    congr 1
    · symm
      apply eq_tab_of _ ha
      intro i hi
      rw [Nat.zero_mul, Nat.zero_add, List.getD_eq_getElem?_getD, List.flatten_cons, List.getElem?_append_left (by omega),
        List.getElem?_eq_getElem (by omega)]
      rfl
    · refine Eq.trans ?_ (ih (fun e he => hp e (List.mem_cons_of_mem _ he)))
      apply tab_congr
      intro j hj
      apply tab_congr
      intro i hi
      have e1 : (j + 1) * d + i = d + (j * d + i) := by ring
      rw [e1, List.getD_eq_getElem?_getD, List.flatten_cons, List.getElem?_append_right (by omega), ha,
        Nat.add_sub_cancel_left, ← List.getD_eq_getElem?_getD]

end Bezman.Base64
