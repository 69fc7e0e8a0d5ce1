import Verif.Proofs.Base64

/-! # Properties: base64

`encode` is `Encode` with an access outside of the vector counted as undefined behaviour,
`encodeMem mem` is `Encode` on a machine that finds the byte `mem i` there. -/

namespace Bezman.Props
open Spec Base64

/-- what a machine may find in memory -/
def Bytes (mem : ℕ → ℕ) : Prop := ∀ i, mem i < 256

/-! ## C50 -/

/-- C50, the part that holds. For a vector whose number of bytes is a multiple of three,
`Encode` reads nothing but the vector and returns the standard encoding of its bytes.
Missing: every other vector. -/
theorem C50_standard_partial (L : ℕ) (hL : 0 < L) (v : List (List ℕ)) (hv : Entries L v) (hv0 : v ≠ [])
    (h3 : v.flatten.length % 3 = 0) :
    encode v = .ok (rfc4648 v.flatten) ∧ ∀ mem, Bytes mem → encodeMem mem v = .ok (rfc4648 v.flatten) := by
  have hpos : 0 < v.flatten.length := by
    rw [hv.flatten_length]
    exact Nat.mul_pos (List.length_pos_iff.mpr hv0) hL
  have hp : padding v.flatten.length = 0 := by unfold padding; omega
  have hg := groups_eq v.flatten.length
  have hlt : ∀ i, v.flatten.getD i 0 < 256 := by
    intro i
    rw [List.getD_eq_getElem?_getD]
    by_cases hi : i < v.flatten.length
    · rw [List.getElem?_eq_getElem hi]; exact hv.flatten_lt _ (List.getElem_mem _)
    · rw [List.getElem?_eq_none (by omega)]; simp
  have hget : ∀ d i : ℕ, i < v.flatten.length → v.flatten.getD i d = v.flatten.getD i 0 := by
    intro d i hi
    rw [List.getD_eq_getElem?_getD, List.getD_eq_getElem?_getD, List.getElem?_eq_getElem hi]; rfl
  rw [rfc4648_eq _ hv.flatten_lt]
  constructor
  · unfold encode
    exact encodeBytes_ok (by omega) _ (fun i hi => by
      rw [rd_getElem (by omega), List.getD_eq_getElem?_getD, List.getElem?_eq_getElem (by omega)]; rfl) hlt
  · intro mem _
    unfold encodeMem
    exact encodeBytes_ok (by omega) _ (fun i hi => by
      rw [hget _ _ (by omega)]; rfl) hlt

/-- C50 fails: whenever the number of bytes is not a multiple of three, `Encode` reads
behind the end of the vector. -/
theorem C50_reads_behind_the_end (L : ℕ) (v : List (List ℕ)) (hv : Entries L v) (h3 : v.flatten.length % 3 ≠ 0) :
    encode v = .error .ub :=
  encodeBytes_ub hv.flatten_lt h3

/-- C50. `Encode` of an empty vector takes the address of an element that does not
exist. -/
theorem C50_empty : encode [] = .error .ub := rfl

/-- C50. Whatever the machine finds behind the vector, the text has the standard length and
the standard padding. -/
theorem C50_shape (L : ℕ) (hL : 0 < L) (v : List (List ℕ)) (hv : Entries L v) (hv0 : v ≠ []) (mem : ℕ → ℕ) (hmem : Bytes mem) :
    ∃ s, encodeMem mem v = .ok s ∧ s.length = 4 * ((v.flatten.length + 2) / 3) ∧ s.length = (rfc4648 v.flatten).length ∧
      (∀ i, s[i]? = some '='.toNat ↔ s.length - (3 - v.flatten.length % 3) % 3 ≤ i ∧ i < s.length) ∧
      ∀ c ∈ s, c ≠ '='.toNat → ∃ x, x < 64 ∧ c = base64Char x := by
  have hlt : ∀ i, v.flatten.getD i (mem i) < 256 := by
    intro i
    rw [List.getD_eq_getElem?_getD]
    by_cases hi : i < v.flatten.length
    · rw [List.getElem?_eq_getElem hi]; exact hv.flatten_lt _ (List.getElem_mem _)
    · rw [List.getElem?_eq_none (by omega)]; exact hmem i
  have hg := groups_eq (v.length * L)
  have hp := padding_lt (v.length * L)
  refine ⟨_, encodeMem_ok hL hv hv0 mem hmem, ?_, ?_, ?_, ?_⟩
  · simp only [tab_length]
    rw [hv.flatten_length]
    unfold groups padding
    omega
  · rw [rfc4648_eq _ hv.flatten_lt, hv.flatten_length]; simp
  · intro i
    simp only [tab_length]
    rw [hv.flatten_length]
    change _ ↔ _ - padding (v.length * L) ≤ i ∧ _
    by_cases hi : i < groups (v.length * L) * 4
    · rw [tab_getElem? _ hi]
      by_cases h2 : i < groups (v.length * L) * 4 - padding (v.length * L)
      · rw [if_pos h2, chars_eq]
        have := char_ne_pad _ (digits_lt hlt i)
        constructor
        · intro h; exact absurd (Option.some.inj h) this
        · intro h; omega
      · rw [if_neg h2]
        exact ⟨fun _ => ⟨by omega, hi⟩, fun _ => rfl⟩
    · rw [List.getElem?_eq_none (by simp; omega)]
      constructor
      · intro h; cases h
      · intro h; omega
  · intro c hc hp
    obtain ⟨i, hi, rfl⟩ := List.getElem_of_mem hc
    rw [tab_getElem] at hp ⊢
    by_cases h2 : i < groups (v.length * L) * 4 - padding (v.length * L)
    · rw [if_pos h2, chars_eq]
      exact ⟨_, digits_lt hlt i, rfl⟩
    · rw [if_neg h2] at hp
      exact absurd rfl hp

/-- C50. The text is the standard one exactly if the first byte behind the vector happens
to have its leading bits zero: four bits after one surplus byte, two bits after two. -/
theorem C50_standard_iff (L : ℕ) (hL : 0 < L) (v : List (List ℕ)) (hv : Entries L v) (hv0 : v ≠ []) (mem : ℕ → ℕ)
    (hmem : Bytes mem) :
    encodeMem mem v = .ok (rfc4648 v.flatten) ↔
      (v.flatten.length % 3 = 1 → mem v.flatten.length < 16) ∧ (v.flatten.length % 3 = 2 → mem v.flatten.length < 64) := by
  have hlen := hv.flatten_length
  have hlt : ∀ (d : ℕ → ℕ), (∀ i, d i < 256) → ∀ i, v.flatten.getD i (d i) < 256 := by
    intro d hd i
    rw [List.getD_eq_getElem?_getD]
    by_cases hi : i < v.flatten.length
    · rw [List.getElem?_eq_getElem hi]; exact hv.flatten_lt _ (List.getElem_mem _)
    · rw [List.getElem?_eq_none (by omega)]; exact hd i
  have hin : ∀ d i, i < v.flatten.length → v.flatten.getD i d = v.flatten.getD i 0 := by
    intro d i hi
    rw [List.getD_eq_getElem?_getD, List.getD_eq_getElem?_getD, List.getElem?_eq_getElem hi]; rfl
  have hout : ∀ d i, v.flatten.length ≤ i → v.flatten.getD i d = d := by
    intro d i hi
    rw [List.getD_eq_getElem?_getD, List.getElem?_eq_none hi]; rfl
  have hB := hlt mem hmem
  have h0 := hlt (fun _ => 0) (by simp)
  rw [encodeMem_ok hL hv hv0 mem hmem, rfc4648_eq _ hv.flatten_lt, ← hlen]
  generalize hB' : (fun i => v.flatten.getD i (mem i)) = B
  generalize hC' : (fun i => v.flatten.getD i 0) = C
  have hBi : ∀ i, B i = v.flatten.getD i (mem i) := fun i => by rw [← hB']
  have hCi : ∀ i, C i = v.flatten.getD i 0 := fun i => by rw [← hC']
  have hBlt : ∀ i, B i < 256 := fun i => by rw [hBi]; exact hB i
  have hClt : ∀ i, C i < 256 := fun i => by rw [hCi]; exact h0 i
  have hBC : ∀ i, i < v.flatten.length → B i = C i := fun i hi => by rw [hBi, hCi]; exact hin _ i hi
  have hBo : ∀ i, v.flatten.length ≤ i → B i = mem i := fun i hi => by rw [hBi]; exact hout _ i hi
  have hCo : ∀ i, v.flatten.length ≤ i → C i = 0 := fun i hi => by rw [hCi]; exact hout _ i hi
  generalize v.flatten.length = n at *
  have hg := groups_eq n
  have hp := padding_lt n
  have hpad : padding n = (3 - n % 3) % 3 := rfl
  constructor
  · intro h
    injection h with h
    rw [tab_ext_iff] at h
    constructor
    · intro h1
      have := h (n / 3 * 4 + 1) (by omega)
      rw [if_pos (by omega), if_pos (by omega), chars_eq, chars_eq] at this
      have := base64Char_inj _ _ (digits_lt hBlt _) (digits_lt hClt _) this
      rw [digits1, digits1, hBC _ (by omega), hBo _ (by omega), hCo (n / 3 * 3 + 1) (by omega),
        show n / 3 * 3 + 1 = n by omega] at this
      omega
    · intro h1
      have := h (n / 3 * 4 + 2) (by omega)
      rw [if_pos (by omega), if_pos (by omega), chars_eq, chars_eq] at this
      have := base64Char_inj _ _ (digits_lt hBlt _) (digits_lt hClt _) this
      rw [digits2, digits2, hBC _ (by omega), hBo _ (by omega), hCo (n / 3 * 3 + 2) (by omega),
        show n / 3 * 3 + 2 = n by omega] at this
      omega
  · rintro ⟨h1, h2⟩
    congr 1
    rw [tab_ext_iff]
    intro i hi
    by_cases h : i < groups n * 4 - padding n
    · rw [if_pos h, if_pos h, chars_eq, chars_eq]
      congr 1
      have h4 : i = i / 4 * 4 + i % 4 := by omega
      have hm : i % 4 = 0 ∨ i % 4 = 1 ∨ i % 4 = 2 ∨ i % 4 = 3 := by omega
      rcases hm with hm | hm | hm | hm
      · rw [h4, hm, digits0, digits0, hBC _ (by omega)]
      · rw [h4, hm, digits1, digits1, hBC _ (by omega)]
        by_cases hn : i / 4 * 3 + 1 < n
        · rw [hBC _ hn]
        · have hn1 : i / 4 * 3 + 1 = n := by omega
          have := h1 (by omega)
          rw [hn1, hBo n (le_refl _), hCo n (le_refl _)]
          omega
      · rw [h4, hm, digits2, digits2, hBC (i / 4 * 3 + 1) (by omega)]
        by_cases hn : i / 4 * 3 + 2 < n
        · rw [hBC _ hn]
        · have hn1 : i / 4 * 3 + 2 = n := by omega
          have := h2 (by omega)
          rw [hn1, hBo n (le_refl _), hCo n (le_refl _)]
          omega
      · rw [h4, hm, digits3, digits3, hBC _ (by omega)]
    · rw [if_neg h, if_neg h]

/-- C50 fails: a vector and a memory for which the text is not the standard one. One byte
`0` is to give `AA==`; if 255 follows in memory, `Encode` returns `AP==`. -/
theorem C50_fails : ∃ v, Entries 1 v ∧ ∃ mem, Bytes mem ∧ ∃ s, encodeMem mem v = .ok s ∧ s ≠ rfc4648 v.flatten := by
  refine ⟨[[0]], by simp [Entries], fun _ => 255, by simp [Bytes], ['A', 'P', '=', '='].map Char.toNat, ?_, ?_⟩ <;> decide

example : Entries 2 [[1, 2], [3, 255], [0, 7]] ∧ ([[1, 2], [3, 255], [0, 7]] : List (List ℕ)).flatten.length % 3 = 0 := by
  simp [Entries]

example : encode ["Man".toList.map Char.toNat] = .ok ("TWFu".toList.map Char.toNat) := by decide

/-! ## C49 -/

/-- C49, what `Decode` returns for a text written by `Encode`: the vector, followed by as
many zero entries as fit into the padding. This holds whatever lies behind the vector in
memory. -/
theorem C49_decode_encode (L : ℕ) (hL : 0 < L) (v : List (List ℕ)) (hv : Entries L v) (hv0 : v ≠ []) (mem : ℕ → ℕ)
    (hmem : Bytes mem) :
    ∃ s, encodeMem mem v = .ok s ∧
      decode L s = .ok (v ++ List.replicate ((3 - v.length * L % 3) % 3 / L) (List.replicate L 0)) :=
  ⟨_, encodeMem_ok hL hv hv0 mem hmem, decode_entries hL hv hv0 mem hmem⟩

/-- C49, the part that holds. The round trip gives the vector for entries of at least three
bytes, and for smaller ones if the padding is smaller than an entry. Missing: entries of
one or two bytes with a padding of at least their size. -/
theorem C49_roundtrip_partial (L : ℕ) (hL : 0 < L) (v : List (List ℕ)) (hv : Entries L v) (hv0 : v ≠ []) (mem : ℕ → ℕ)
    (hmem : Bytes mem) (h : 3 ≤ L ∨ (3 - v.length * L % 3) % 3 < L) :
    ∃ s, encodeMem mem v = .ok s ∧ decode L s = .ok v := by
  obtain ⟨s, h1, h2⟩ := C49_decode_encode L hL v hv hv0 mem hmem
  refine ⟨s, h1, ?_⟩
  rw [h2, Nat.div_eq_of_lt (by omega)]
  simp

/-- C49 fails in every other case: the decoded vector is longer. -/
theorem C49_longer (L : ℕ) (hL : 0 < L) (v : List (List ℕ)) (hv : Entries L v) (hv0 : v ≠ []) (mem : ℕ → ℕ)
    (hmem : Bytes mem) (h : L ≤ (3 - v.length * L % 3) % 3) :
    ∃ s w, encodeMem mem v = .ok s ∧ decode L s = .ok w ∧ v.length < w.length := by
  obtain ⟨s, h1, h2⟩ := C49_decode_encode L hL v hv hv0 mem hmem
  refine ⟨s, _, h1, h2, ?_⟩
  rw [List.length_append, List.length_replicate]
  have := Nat.div_pos h hL
  omega

/-- C49 fails: one `char` comes back as three. -/
theorem C49_fails (mem : ℕ → ℕ) (hmem : Bytes mem) :
    ∃ s, encodeMem mem [[65]] = .ok s ∧ decode 1 s = .ok [[65], [0], [0]] :=
  C49_decode_encode 1 (by omega) [[65]] (by simp [Entries]) (by simp) mem hmem

/-- C49. `Decode` reads the standard encoding of every vector of entries of at least three
bytes. -/
theorem C49_decode_standard (L : ℕ) (hL : 0 < L) (v : List (List ℕ)) (hv : Entries L v) (hv0 : v ≠ [])
    (h : 3 ≤ L ∨ (3 - v.length * L % 3) % 3 < L) :
    decode L (rfc4648 v.flatten) = .ok v := by
  have hd := decode_entries hL hv hv0 (fun _ => 0) (by simp)
  rw [rfc4648_eq _ hv.flatten_lt, hv.flatten_length, hd]
  have : padding (v.length * L) / L = 0 := Nat.div_eq_of_lt (by unfold padding; omega)
  rw [this]
  simp

example : Entries 8 [[0, 0, 0, 0, 0, 0, 240, 63], [1, 2, 3, 4, 5, 6, 7, 255]] := by simp [Entries]
example : Entries 2 [[1, 2]] ∧ (3 - ([[1, 2]] : List (List ℕ)).length * 2 % 3) % 3 < 2 := by simp [Entries]
example : Bytes (fun _ => 200) := by simp [Bytes]

/-! ## C51 -/

/-- C51. For every string of a length that is a multiple of four, `Decode` either returns
or runs into undefined behaviour, and it returns exactly if at least one entry fits and
every character can be decoded into the entries. -/
theorem C51_decode_iff (L : ℕ) (hL : 0 < L) (s : List ℕ) (hs : s.length % 4 = 0) (h256 : ∀ c ∈ s, c < 256) :
    (L ≤ s.length / 4 * 3 ∧ Decodable (s.length / 4 * 3 / L * L) s →
      ∃ v, decode L s = .ok v ∧ v.length = s.length / 4 * 3 / L) ∧
    (¬ (L ≤ s.length / 4 * 3 ∧ Decodable (s.length / 4 * 3 / L * L) s) → decode L s = .error .ub) :=
  decode_dich hL hs h256

/-- C51. Any other length fails the assertion. -/
theorem C51_length (L : ℕ) (s : List ℕ) (hs : s.length % 4 ≠ 0) : decode L s = .error .assertFail := by
  unfold decode assertM
  rw [if_neg (by simpa using hs)]
  rfl

/-- C51. A text written by `Encode` is decoded without undefined behaviour. -/
theorem C51_encoded_is_safe (L : ℕ) (hL : 0 < L) (v : List (List ℕ)) (hv : Entries L v) (hv0 : v ≠ []) (mem : ℕ → ℕ)
    (hmem : Bytes mem) : ∃ s w, encodeMem mem v = .ok s ∧ decode L s = .ok w := by
  obtain ⟨s, h1, h2⟩ := C49_decode_encode L hL v hv hv0 mem hmem
  exact ⟨s, _, h1, h2⟩

/-- C51. `Encode` of nine bytes, decoded as entries of eight: the last byte is written
behind the vector. -/
theorem C51_overflow : decode 8 (rfc4648 [1, 2, 3, 4, 5, 6, 7, 8, 9]) = .error .ub := by
  refine (C51_decode_iff 8 (by omega) _ (by decide) (by decide)).2 ?_
  rintro ⟨_, h⟩
  have := (h 11 (base64Char 9) (by decide) (by decide)).2 (by omega)
  revert this
  decide

/-- C51. A character that is not ASCII is looked up outside of the table. -/
theorem C51_not_ascii (L : ℕ) (hL : 0 < L) (s : List ℕ) (hs : s.length % 4 = 0) (h256 : ∀ c ∈ s, c < 256) (c : ℕ)
    (hc : c ∈ s) (h128 : 128 ≤ c) : decode L s = .error .ub := by
  refine (C51_decode_iff L hL s hs h256).2 ?_
  rintro ⟨_, h⟩
  obtain ⟨i, hi, rfl⟩ := List.getElem_of_mem hc
  have := (h i _ (List.getElem?_eq_getElem hi) (by intro h; rw [h] at h128; revert h128; decide)).1
  omega

/-- C51. An empty string, and any string too short for one entry. -/
theorem C51_too_short (L : ℕ) (s : List ℕ) (hs : s.length % 4 = 0) (h256 : ∀ c ∈ s, c < 256) (h : s.length / 4 * 3 < L) :
    decode L s = .error .ub :=
  (C51_decode_iff L (by omega) s hs h256).2 (fun h' => absurd h'.1 (by omega))

example : Decodable 3 ("TWFu".toList.map Char.toNat) := by
  intro i c hi hc
  have h4 : i < 4 := by
    have := (List.getElem?_eq_some_iff.mp hi).1
    simpa using this
  have : i = 0 ∨ i = 1 ∨ i = 2 ∨ i = 3 := by omega
  rcases this with h | h | h | h <;> subst h <;> simp at hi <;> subst hi <;> decide

/-! ## C52 -/

/-- C52, the part that holds. Points with coordinates of at least three bytes (or a padding
smaller than a coordinate) come back unchanged. Missing as in C49. -/
theorem C52_points_roundtrip_partial (d L : ℕ) (hd : 0 < d) (hL : 0 < L) (pts : List (List (List ℕ)))
    (hp : ∀ p ∈ pts, p.length = d ∧ Entries L p) (hp0 : pts ≠ []) (mem : ℕ → ℕ) (hmem : Bytes mem)
    (h : 3 ≤ L ∨ (3 - pts.length * d * L % 3) % 3 < L) :
    ∃ s, encodePointsMem mem d pts = .ok s ∧ decodePoints d L s = .ok pts := by
  have hE : Entries L pts.flatten := by
    intro e he
    obtain ⟨p, hpp, hep⟩ := List.mem_flatten.mp he
    exact (hp p hpp).2 e hep
  have hflat : pts.flatten.length = pts.length * d := by
    clear h hp0 hE
    induction pts with
    | nil => simp
    | cons a v ih =>
      rw [List.flatten_cons, List.length_append, ih (fun e he => hp e (List.mem_cons_of_mem _ he)),
        (hp a List.mem_cons_self).1, List.length_cons]
      ring
  have hpos : 0 < pts.length := List.length_pos_iff.mpr hp0
  have hne : pts.flatten ≠ [] := by
    apply List.length_pos_iff.mp
    rw [hflat]
    exact Nat.mul_pos hpos hd
  obtain ⟨s, h1, h2⟩ := C49_roundtrip_partial L hL pts.flatten hE hne mem hmem (by rw [hflat]; exact h)
  refine ⟨s, ?_, ?_⟩
  · unfold encodePointsMem
    rw [pointsToScalars_ok (fun p hpp => (hp p hpp).1)]
    exact h1
  · rw [decodePoints_ok hd h2 (by rw [hflat]; exact Nat.mul_mod_left _ _), hflat, Nat.mul_div_cancel _ hd,
      tab_points (fun p hpp => (hp p hpp).1)]

/-- C52. A text that decodes to a number of coordinates that is not a multiple of the
dimension fails the assertion; any other is read point by point. -/
theorem C52_rejects (d L : ℕ) (hd : 0 < d) (s : List ℕ) (w : List (List ℕ)) (hw : decode L s = .ok w) :
    (w.length % d ≠ 0 → decodePoints d L s = .error .assertFail) ∧
    (w.length % d = 0 → ∃ pts, decodePoints d L s = .ok pts ∧ (∀ p ∈ pts, p.length = d) ∧ pts.flatten = w) := by
  refine ⟨decodePoints_rejects hd hw, fun hm => ⟨_, decodePoints_ok hd hw hm, ?_, ?_⟩⟩
  · intro p hp
    obtain ⟨j, _, rfl⟩ := List.mem_map.mp hp
    simp
  · rw [flatten_tab]
    have e : w.length / d * d = w.length := Nat.div_mul_cancel (Nat.dvd_of_mod_eq_zero hm)
    rw [e]
    symm
    apply eq_tab_of _ rfl
    intro i hi
    rw [Nat.div_add_mod', List.getD_eq_getElem?_getD, List.getElem?_eq_getElem hi]
    rfl

/-- C52. In particular: the vector of `n` coordinates of at least three bytes, encoded and
decoded as points, is rejected if `d` does not divide `n`. -/
theorem C52_rejects_encoded (d L : ℕ) (hd : 0 < d) (hL : 3 ≤ L) (v : List (List ℕ)) (hv : Entries L v)
    (hv0 : v ≠ []) (mem : ℕ → ℕ) (hmem : Bytes mem) (hn : ¬ d ∣ v.length) :
    ∃ s, encodeMem mem v = .ok s ∧ decodePoints d L s = .error .assertFail := by
  obtain ⟨s, h1, h2⟩ := C49_roundtrip_partial L (by omega) v hv hv0 mem hmem (Or.inl hL)
  exact ⟨s, h1, (C52_rejects d L hd s v h2).1 (fun h => hn (Nat.dvd_of_mod_eq_zero h))⟩

example : ∀ p ∈ [[[1, 2, 3, 4], [5, 6, 7, 8]], [[9, 10, 11, 12], [13, 14, 15, 255]]], p.length = 2 ∧ Entries 4 p := by
  simp [Entries]

end Bezman.Props
