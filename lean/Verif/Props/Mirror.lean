import Verif.Proofs.Mirror
import Verif.Proofs.PderivLaws
import Verif.Proofs.Nets
import Verif.Props.RationalCompose
import Verif.Props.History
import Verif.Spec.Promotion

/-! # Property C120: orientation and numbering of the parametric dimensions do not matter -/

namespace Bezman.Props
open Spec Coords

/-! ## C120, reversed dimensions -/

section
variable {K V : Type} [Field K] [LinearOrder K] [IsStrictOrderedRing K] [AddCommGroup V] [Module K V]

omit [LinearOrder K] [IsStrictOrderedRing K] in
theorem flip_modify_ne {d e : ℕ} (h : d ≠ e) (φ : K → K) (t : List K) : (flipAt d t).modify e φ = flipAt d (t.modify e φ) := by
  unfold flipAt
  apply List.ext_getElem
  · simp
  · intro i h1 h2
    simp only [List.getElem_modify]
    split <;> split <;> first | rfl | omega

omit [LinearOrder K] [IsStrictOrderedRing K] in
theorem flip_modify_eq {d : ℕ} (φ ψ : K → K) (h : ∀ x, 1 - ψ x = φ (1 - x)) (t : List K) :
    flipAt d (t.modify d ψ) = (flipAt d t).modify d φ := by
  unfold flipAt
  apply List.ext_getElem
  · simp
  · intro i h1 h2
    simp only [List.getElem_modify]
    split
    · exact h _
    · rfl

/-- C120. The reversed spline has the same values, at `1 - t_d` instead of `t_d`. -/
theorem C120_evaluate (d : ℕ) (s s' : Spline V) (hd : d < s.degrees.length) (h : Mirrored d s s') (t : List K)
    (ht : t.length = s.degrees.length) : SameResult (s'.evaluate t) (s.evaluate (flipAt d t)) := by
  have hs := h.wf.computes (K := K)
  exact ⟨_, (h.computes hs hd).eval t ht, hs.eval _ (by rw [length_flipAt]; exact ht)⟩

/-- C120. Conversely, a spline with these values is the reversed spline. -/
theorem C120_determined (d : ℕ) (s s' : Spline V) (hs : s.WF) (hs' : s'.WF) (he : s'.degrees = s.degrees) (hd : d < s.degrees.length)
    (h : ∀ t : List K, t.length = s.degrees.length → SameResult (s'.evaluate t) (s.evaluate (flipAt d t))) : Mirrored d s s' := by
  have c := hs.computes (K := K)
  have c' := hs'.computes (K := K)
  rw [he] at c'
  refine mirrored_of c c' hd fun t ht => ?_
  obtain ⟨x, h1, h2⟩ := h t ht
  rw [c'.eval t ht] at h1
  rw [c.eval _ (by rw [length_flipAt]; exact ht)] at h2
  injection h1 with h1
  injection h2 with h2
  rw [h1, h2]

omit [Module K V] [Field K] [LinearOrder K] [IsStrictOrderedRing K] in
/-- C120. Every spline can be reversed. -/
theorem C120_exists (d : ℕ) (s : Spline V) (hs : s.WF) (hd : d < s.degrees.length) : ∃ s', Mirrored d s s' := by
  have hp : s.degrees[d]? = some s.degrees[d] := List.getElem?_eq_getElem hd
  refine ⟨⟨s.degrees, s.ncp, s.offsets, tab (size s.degrees) fun n => s.cp ((unflat s.degrees n).modify d fun i => s.degrees[d] - i)⟩,
    hs, ⟨hs.dim_pos, hs.ncp_eq, hs.offsets_eq, by simp⟩, rfl, fun idx p hi hp' => ?_⟩
  rw [hp] at hp'
  cases hp'
  have hw : (⟨s.degrees, s.ncp, s.offsets, tab (size s.degrees) fun n => s.cp ((unflat s.degrees n).modify d fun i => s.degrees[d] - i)⟩ :
    Spline V).WF := ⟨hs.dim_pos, hs.ncp_eq, hs.offsets_eq, by simp⟩
  rw [Spline.controlPoint_cp hw hi, Spline.controlPoint_cp hs (valid_flip hi hp)]
  congr 1
  have key : ∀ (S : Spline V) (F : ℕ → V), S.degrees = s.degrees → S.cps = tab (size s.degrees) F →
      S.cp idx = F (flatIndex s.degrees idx) := by
    intro S F h1 h2
    rw [← h1] at h2 hi ⊢
    exact Spline.cp_tab h2 hi
  have h2 := key ⟨s.degrees, s.ncp, s.offsets, tab (size s.degrees) fun n => s.cp ((unflat s.degrees n).modify d fun i => s.degrees[d] - i)⟩
    _ rfl rfl
  refine h2.trans ?_
  simp only [unflat_flatIndex hi]

omit [Module K V] [Field K] [LinearOrder K] [IsStrictOrderedRing K] in
/-- C120. Reversing twice gives the spline back. -/
theorem C120_twice (d : ℕ) (s s' s'' : Spline V) (hd : d < s.degrees.length) (h : Mirrored d s s') (h' : Mirrored d s' s'') : s'' = s := by
  have hp : s.degrees[d]? = some s.degrees[d] := List.getElem?_eq_getElem hd
  have e := h'.degrees.trans h.degrees
  refine (Spline.cp_ext h.wf h'.wf' e fun idx hi => ?_).symm
  have h1 := h'.points idx s.degrees[d] (by rw [h.degrees]; exact hi) (by rw [h.degrees]; exact hp)
  have h2 := h.points (idx.modify d fun i => s.degrees[d] - i) s.degrees[d] (valid_flip hi hp) hp
  rw [h2] at h1
  have e2 : (idx.modify d fun i => s.degrees[d] - i).modify d (fun i => s.degrees[d] - i) = idx := by
    apply List.ext_getElem
    · simp
    · intro i g1 g2
      rw [List.getElem_modify, List.getElem_modify]
      split
      · next hdi =>
        subst hdi
        have := (List.forall₂_iff_get.mp hi).2 d g2 hd
        simp only [List.get_eq_getElem] at this
        omega
      · rfl
  rw [e2, Spline.controlPoint_cp h'.wf' (by rw [e]; exact hi), Spline.controlPoint_cp h.wf hi] at h1
  injection h1 with h1
  exact h1.symm

/-- C120. Order elevation in any dimension. -/
theorem C120_elevate (d : ℕ) (s s' : Spline V) (hd : d < s.degrees.length) (h : Mirrored d s s') (e p : ℕ) (hp : s.degrees[e]? = some p)
    (hsize : size (s.degrees.set e (p + 1)) < 2 ^ 31) :
    ∃ r r', Spline.orderElevate K s e = .ok r ∧ Spline.orderElevate K s' e = .ok r' ∧ Mirrored d r r' := by
  have hs := h.wf.computes (K := K)
  obtain ⟨r, e1, h1⟩ := C12_order_elevate s _ _ hs e p hp hsize
  obtain ⟨r', e2, h2⟩ := C12_order_elevate s' _ _ (h.computes hs hd) e p hp hsize
  exact ⟨r, r', e1, e2, mirrored_of h1 h2 (by simpa using hd) fun _ _ => rfl⟩

/-- C120. Splitting the reversed dimension: the position is mirrored, and the parts are mirrored and come in the opposite order. -/
theorem C120_split_reversed (d : ℕ) (s s' : Spline V) (hd : d < s.degrees.length) (h : Mirrored d s s') (z : K) (h0 : 0 < z) (h1 : z < 1) :
    ∃ a b a' b', s.splitAt z d = .ok (a, b) ∧ s'.splitAt (1 - z) d = .ok (b', a') ∧ Mirrored d a a' ∧ Mirrored d b b' := by
  have hs := h.wf.computes (K := K)
  obtain ⟨a, b, e1, ha, hb⟩ := C31_split s _ _ hs d hd z h0 h1
  obtain ⟨b', a', e2, hb', ha'⟩ := C31_split s' _ _ (h.computes hs hd) d hd (1 - z) (by linarith) (by linarith)
  refine ⟨a, b, a', b', e1, e2, mirrored_of ha ha' hd fun t _ => ?_, mirrored_of hb hb' hd fun t _ => ?_⟩
  · exact congrArg _ (flip_modify_eq _ _ (fun x => by ring) t)
  · exact congrArg _ (flip_modify_eq _ _ (fun x => by ring) t)

/-- C120. Splitting another dimension. -/
theorem C120_split_other (d e : ℕ) (hde : d ≠ e) (s s' : Spline V) (hd : d < s.degrees.length) (he : e < s.degrees.length)
    (h : Mirrored d s s') (z : K) (h0 : 0 < z) (h1 : z < 1) :
    ∃ a b a' b', s.splitAt z e = .ok (a, b) ∧ s'.splitAt z e = .ok (a', b') ∧ Mirrored d a a' ∧ Mirrored d b b' := by
  have hs := h.wf.computes (K := K)
  obtain ⟨a, b, e1, ha, hb⟩ := C31_split s _ _ hs e he z h0 h1
  obtain ⟨a', b', e2, ha', hb'⟩ := C31_split s' _ _ (h.computes hs hd) e he z h0 h1
  refine ⟨a, b, a', b', e1, e2, mirrored_of ha ha' hd fun t _ => ?_, mirrored_of hb hb' hd fun t _ => ?_⟩
  · exact congrArg _ (flip_modify_ne hde _ t).symm
  · exact congrArg _ (flip_modify_ne hde _ t).symm

/-- C120. Sums and differences. -/
theorem C120_add (d : ℕ) (cfg : Cfg) (a a' b b' : Spline V) (hd : d < a.degrees.length) (ha : Mirrored d a a') (hb : Mirrored d b b')
    (hf : Fits cfg a.degrees b.degrees) :
    ∃ r r', Spline.addOp K cfg a b = .ok r ∧ Spline.addOp K cfg a' b' = .ok r' ∧ Mirrored d r r' := by
  have ca := ha.wf.computes (K := K)
  have cb := hb.wf.computes (K := K)
  have hl := hf.dims
  obtain ⟨r, e1, h1⟩ := C16_add cfg a b _ _ _ _ ca cb hf
  obtain ⟨r', e2, h2⟩ := C16_add cfg a' b' _ _ _ _ (ha.computes ca hd) (hb.computes cb (by omega)) hf
  exact ⟨r, r', e1, e2, mirrored_of h1 h2 (by simp [maxDegrees]; omega) fun _ _ => rfl⟩

@[inherit_doc C120_add]
theorem C120_sub_assign (d : ℕ) (cfg : Cfg) (a a' b b' : Spline V) (hd : d < a.degrees.length) (ha : Mirrored d a a') (hb : Mirrored d b b')
    (hf : Fits cfg a.degrees b.degrees) :
    ∃ r r', Spline.subAssign K cfg a b = .ok r ∧ Spline.subAssign K cfg a' b' = .ok r' ∧ Mirrored d r r' := by
  have ca := ha.wf.computes (K := K)
  have cb := hb.wf.computes (K := K)
  have hl := hf.dims
  obtain ⟨r, e1, h1⟩ := C19_sub_assign cfg a b _ _ _ _ ca cb hf
  obtain ⟨r', e2, h2⟩ := C19_sub_assign cfg a' b' _ _ _ _ (ha.computes ca hd) (hb.computes cb (by omega)) hf
  exact ⟨r, r', e1, e2, mirrored_of h1 h2 (by simp [maxDegrees]; omega) fun _ _ => rfl⟩

/-- C120. Products of any kind: of numbers, of numbers and points, of points. -/
theorem C120_mul {W U : Type} [AddCommGroup W] [Module K W] [AddCommGroup U] [Module K U] (d : ℕ) (cfg : Cfg) (hmax : cfg.maxBinom ≤ 68)
    (mul : V → W → U) (B : V →ₗ[K] W →ₗ[K] U) (hB : ∀ x y, mul x y = B x y) (a a' : Spline V) (b b' : Spline W)
    (hd : d < a.degrees.length) (ha : Mirrored d a a') (hb : Mirrored d b b') (hdim : b.degrees.length = a.degrees.length)
    (hdeg : ∀ p ∈ sumDegrees a.degrees b.degrees, p < cfg.maxBinom) :
    ∃ r r', Spline.mulOp K cfg mul a b = .ok r ∧ Spline.mulOp K cfg mul a' b' = .ok r' ∧ Mirrored d r r' := by
  have ca := ha.wf.computes (K := K)
  have cb := hb.wf.computes (K := K)
  obtain ⟨r, e1, h1⟩ := C21_mul cfg hmax mul B hB a b _ _ _ _ ca cb hdim hdeg
  obtain ⟨r', e2, h2⟩ := C21_mul cfg hmax mul B hB a' b' _ _ _ _ (ha.computes ca hd) (hb.computes cb (by omega)) hdim hdeg
  exact ⟨r, r', e1, e2, mirrored_of h1 h2 (by simp [sumDegrees]; omega) fun _ _ => rfl⟩

/-- C120. Scaling. -/
theorem C120_scale (d : ℕ) (s s' : Spline V) (hd : d < s.degrees.length) (h : Mirrored d s s') (c : K) :
    ∃ r r', s.smulOp c = .ok r ∧ s'.smulOp c = .ok r' ∧ Mirrored d r r' := by
  have hs := h.wf.computes (K := K)
  obtain ⟨r, e1, h1⟩ := C20_scale s _ _ hs c
  obtain ⟨r', e2, h2⟩ := C20_scale s' _ _ (h.computes hs hd) c
  exact ⟨r, r', e1, e2, mirrored_of h1 h2 hd fun _ _ => rfl⟩

/-- C120. Powers. -/
theorem C120_power (d : ℕ) (cfg : Cfg) (hmax : cfg.maxBinom ≤ 68) (s s' : Spline K) (hd : d < s.degrees.length) (h : Mirrored d s s')
    (n : ℕ) (hdeg : ∀ p ∈ s.degrees, n * p < cfg.maxBinom) :
    ∃ r r', s.raisePower cfg n = .ok r ∧ s'.raisePower cfg n = .ok r' ∧ Mirrored d r r' := by
  have hs := h.wf.computes (K := K)
  obtain ⟨r, e1, h1⟩ := C22_raise_power cfg hmax s _ _ hs n hdeg
  obtain ⟨r', e2, h2⟩ := C22_raise_power cfg hmax s' _ _ (h.computes hs hd) n hdeg
  exact ⟨r, r', e1, e2, mirrored_of h1 h2 (by simpa using hd) fun _ _ => rfl⟩

section box
variable [Coords K V] [LawfulCoords K V]

omit [Module K V] [Field K] [LinearOrder K] [IsStrictOrderedRing K] [Coords K V] [LawfulCoords K V] in
theorem mem_cps_iff {s : Spline V} (hs : s.WF) (x : V) : x ∈ s.cps ↔ ∃ idx, ValidIdx s.degrees idx ∧ s.controlPoint idx = .ok x := by
  constructor
  · intro hx
    obtain ⟨n, hn, rfl⟩ := List.mem_iff_getElem.mp hx
    have hn' : n < size s.degrees := by rw [← hs.cps_len]; exact hn
    refine ⟨unflat s.degrees n, unflat_valid _ _, ?_⟩
    rw [Spline.controlPoint_cp hs (unflat_valid _ _), Spline.cp, flatIndex_unflat hn']
    simp [hn]
  · rintro ⟨idx, hi, h⟩
    have hl : flatIndex s.degrees idx < s.cps.length := by rw [hs.cps_len]; exact flatIndex_lt hi
    rw [Spline.controlPoint_cp hs hi, Spline.cp, List.getD_eq_getElem?_getD, List.getElem?_eq_getElem hl] at h
    injection h with h
    rw [← h]
    exact List.getElem_mem hl

/-- the bounding box and the check of the unit cube depend on the set of control points only -/
theorem box_of_mem {s s' : Spline V} (hs : s.WF) (hs' : s'.WF) (h : ∀ x, x ∈ s'.cps ↔ x ∈ s.cps) :
    SameResult (s'.minimumCorner K) (s.minimumCorner K) ∧ SameResult (s'.maximumCorner K) (s.maximumCorner K) ∧
    SameResult (s'.fitsIntoUnitCube K) (s.fitsIntoUnitCube K) := by
  obtain ⟨m, a1, a2, a3⟩ := Spline.minimumCorner_ok (K := K) hs
  obtain ⟨m', b1, b2, b3⟩ := Spline.minimumCorner_ok (K := K) hs'
  obtain ⟨n, c1, c2, c3⟩ := Spline.maximumCorner_ok (K := K) hs
  obtain ⟨n', d1, d2, d3⟩ := Spline.maximumCorner_ok (K := K) hs'
  obtain ⟨u, e1, e2⟩ := Spline.fitsIntoUnitCube_ok (K := K) hs
  obtain ⟨u', f1, f2⟩ := Spline.fitsIntoUnitCube_ok (K := K) hs'
  have hm : m' = m := by
    refine LawfulCoords.ext (K := K) _ _ fun j => le_antisymm ?_ ?_
    · obtain ⟨x, hx, e⟩ := a3 j
      rw [← e]; exact b2 j x ((h x).mpr hx)
    · obtain ⟨x, hx, e⟩ := b3 j
      rw [← e]; exact a2 j x ((h x).mp hx)
  have hn : n' = n := by
    refine LawfulCoords.ext (K := K) _ _ fun j => le_antisymm ?_ ?_
    · obtain ⟨x, hx, e⟩ := d3 j
      rw [← e]; exact c2 j x ((h x).mp hx)
    · obtain ⟨x, hx, e⟩ := c3 j
      rw [← e]; exact d2 j x ((h x).mpr hx)
  have hu : u' = u := by
    rw [Bool.eq_iff_iff, e2, f2]
    exact ⟨fun g x hx => g x ((h x).mpr hx), fun g x hx => g x ((h x).mp hx)⟩
  exact ⟨⟨m, hm ▸ b1, a1⟩, ⟨n, hn ▸ d1, c1⟩, ⟨u, hu ▸ f1, e1⟩⟩

omit [Module K V] [Field K] [LinearOrder K] [IsStrictOrderedRing K] [Coords K V] [LawfulCoords K V] in
theorem mirrored_mem {d : ℕ} {s s' : Spline V} (hd : d < s.degrees.length) (h : Mirrored d s s') (x : V) : x ∈ s'.cps ↔ x ∈ s.cps := by
  have key : ∀ {a b : Spline V}, d < a.degrees.length → Mirrored d a b → x ∈ b.cps → x ∈ a.cps := by
    intro a b hd h hx
    obtain ⟨idx, hi, e⟩ := (mem_cps_iff h.wf' x).mp hx
    rw [h.degrees] at hi
    have hp : a.degrees[d]? = some a.degrees[d] := List.getElem?_eq_getElem hd
    exact (mem_cps_iff h.wf x).mpr ⟨_, valid_flip hi hp, (h.points idx _ hi hp).symm.trans e⟩
  refine ⟨key hd h, key (by rw [h.degrees]; exact hd) ?_⟩
  obtain ⟨s'', h''⟩ := C120_exists d s' h.wf' (by rw [h.degrees]; exact hd)
  rwa [C120_twice d s s' s'' hd h h''] at h''

/-- C120. The bounding box, and whether the spline may be composed into another one. -/
theorem C120_box (d : ℕ) (s s' : Spline V) (hd : d < s.degrees.length) (h : Mirrored d s s') :
    SameResult (s'.minimumCorner K) (s.minimumCorner K) ∧ SameResult (s'.maximumCorner K) (s.maximumCorner K) ∧
    SameResult (s'.fitsIntoUnitCube K) (s.fitsIntoUnitCube K) := box_of_mem h.wf h.wf' (mirrored_mem hd h)

end box

section compose
variable {W : Type} [AddCommGroup W] [Module K W] [Coords K W] [LawfulCoords K W]

/-- C120. Composition with a reversed inner spline is the reversed composition. -/
theorem C120_compose_inner (d : ℕ) (cfg : Cfg) (hmax : cfg.maxBinom ≤ 68) (outer : Spline V) (inner inner' : Spline W) (ho : outer.WF)
    (hd : d < inner.degrees.length) (h : Mirrored d inner inner') (hdim : outer.degrees.length = Coords.n K W)
    (hcube : inner.fitsIntoUnitCube K = .ok true) (hdeg : ∀ p ∈ outer.degrees, p < cfg.maxBinom)
    (hdeg' : ∀ q ∈ inner.degrees, outer.degrees.sum * q < cfg.maxBinom) :
    ∃ r r', outer.compose K cfg inner = .ok r ∧ outer.compose K cfg inner' = .ok r' ∧ Mirrored d r r' := by
  have co := ho.computes (K := K)
  have ci := h.wf.computes (K := K)
  have hcube' : inner'.fitsIntoUnitCube K = .ok true := by
    obtain ⟨u, h1, h2⟩ := (C120_box (K := K) d inner inner' hd h).2.2
    rw [hcube] at h2
    cases h2
    exact h1
  obtain ⟨r, e1, h1⟩ := C26_compose cfg hmax outer inner _ _ _ _ co ci hdim hcube hdeg hdeg'
  obtain ⟨r', e2, h2⟩ := C26_compose cfg hmax outer inner' _ _ _ _ co (h.computes ci hd) hdim hcube' hdeg hdeg'
  exact ⟨r, r', e1, e2, mirrored_of h1 h2 (by simpa using hd) fun _ _ => rfl⟩

/-- C120. A reversed outer spline composed with an inner spline whose coordinate `d` is mirrored is the same composition. -/
theorem C120_compose_outer (d : ℕ) (cfg : Cfg) (hmax : cfg.maxBinom ≤ 68) (outer outer' : Spline V) (inner inner' : Spline W)
    (dI : List ℕ) (g g' : List K → W) (hd : d < outer.degrees.length) (h : Mirrored d outer outer') (hi : inner.Computes dI g)
    (hi' : inner'.Computes dI g')
    (hg : ∀ (t : List K) (j : Fin (Coords.n K W)), t.length = dI.length →
      (coord (g' t) j : K) = if (j : ℕ) = d then 1 - coord (g t) j else coord (g t) j)
    (hdim : outer.degrees.length = Coords.n K W) (hcube : inner.fitsIntoUnitCube K = .ok true) (hcube' : inner'.fitsIntoUnitCube K = .ok true)
    (hdeg : ∀ p ∈ outer.degrees, p < cfg.maxBinom) (hdeg' : ∀ q ∈ dI, outer.degrees.sum * q < cfg.maxBinom) :
    SameResult (outer'.compose K cfg inner') (outer.compose K cfg inner) := by
  have co := h.wf.computes (K := K)
  obtain ⟨r, e1, h1⟩ := C26_compose cfg hmax outer inner _ _ _ _ co hi hdim hcube hdeg hdeg'
  obtain ⟨r', e2, h2⟩ := C26_compose cfg hmax outer' inner' _ _ _ _ (h.computes co hd) hi' hdim hcube' hdeg hdeg'
  refine ⟨r, ?_, e1⟩
  rw [e2]
  congr 1
  refine h2.unique (h1.congr fun t ht => ?_)
  have ht' : t.length = dI.length := by simpa using ht
  congr 1
  unfold flipAt
  apply List.ext_getElem
  · simp [coordList]
  · intro i g1 g2
    rw [List.getElem_modify]
    simp only [coordList, List.getElem_map, List.getElem_finRange]
    rw [hg t _ ht']
    simp only [Fin.val_cast, eq_comm (a := d)]
    split <;> simp

end compose
end

section derivative
variable {𝕜 V : Type} [NontriviallyNormedField 𝕜] [CharZero 𝕜] [NormedAddCommGroup V] [NormedSpace 𝕜 V]

omit [CharZero 𝕜] in
theorem flipAt_affine (d : ℕ) (t : List 𝕜) : flipAt d t = t.modify d (fun x => 1 + -1 * x) := by
  unfold flipAt
  congr 1
  funext x
  ring

theorem pderiv_flip {d : ℕ} {s s' : Spline V} {ds : List ℕ} {f : List 𝕜 → V} (h : Mirrored d s s') (hs : s.Computes ds f)
    (hd : d < ds.length) {k : List ℕ} {t : List 𝕜} (hk : k.length = ds.length) (ht : t.length = ds.length) :
    pderiv k (fun t => f (flipAt d t)) t = (-1 : 𝕜) ^ (k.getD d 0) • pderiv k f (flipAt d t) := by
  have hs' := h.computes hs hd
  simp only [flipAt_affine] at hs' ⊢
  exact hs.pderiv_modify hd 1 (-1) hs' hk ht

/-- C120. Derivatives change their sign with every derivative in the reversed dimension. -/
theorem C120_evaluate_derivative (d : ℕ) (cfg : Cfg) (hmax : cfg.maxBinom ≤ 68) (s s' : Spline V) (hd : d < s.degrees.length)
    (h : Mirrored d s s') (hdeg : ∀ p ∈ s.degrees, p < cfg.maxBinom) (k : List ℕ) (hk : k.length = s.degrees.length) (t : List 𝕜)
    (ht : t.length = s.degrees.length) :
    ∃ x, s.evaluateDerivative cfg (flipAt d t) k = .ok x ∧ s'.evaluateDerivative cfg t k = .ok ((-1 : 𝕜) ^ (k.getD d 0) • x) := by
  have hs := h.wf.computes (K := 𝕜)
  refine ⟨_, C14_evaluate_derivative cfg hmax s _ _ hs hdeg k hk _ (by rw [length_flipAt]; exact ht), ?_⟩
  rw [C14_evaluate_derivative cfg hmax s' _ _ (h.computes hs hd) hdeg k hk t ht, pderiv_flip h hs hd hk ht]

/-- C120. The derivative of the reversed spline is the reversed derivative, with the same change of sign. -/
theorem C120_derivative_spline (d : ℕ) (cfg : Cfg) (hmax : cfg.maxBinom ≤ 68) (s s' : Spline V) (hd : d < s.degrees.length)
    (h : Mirrored d s s') (k : List ℕ) (hk : k.length = s.degrees.length)
    (hle : ∀ (e o p : ℕ), k[e]? = some o → s.degrees[e]? = some p → o ≤ p) (hord : ∀ o ∈ k, o < cfg.maxBinom)
    (hsize : size s.degrees < 2 ^ 64) :
    ∃ r q r', s.derivativeSpline 𝕜 cfg k = .ok r ∧ r.smulOp ((-1 : 𝕜) ^ (k.getD d 0)) = .ok q ∧ s'.derivativeSpline 𝕜 cfg k = .ok r' ∧
      Mirrored d q r' := by
  have hs := h.wf.computes (K := 𝕜)
  obtain ⟨r, e1, h1⟩ := C13_derivative_spline cfg hmax s _ _ hs k hk hle hord hsize
  obtain ⟨r', e2, h2⟩ := C13_derivative_spline cfg hmax s' _ _ (h.computes hs hd) k hk hle hord hsize
  obtain ⟨q, e3, h3⟩ := C20_scale r _ _ h1 ((-1 : 𝕜) ^ (k.getD d 0))
  refine ⟨r, q, r', e1, e3, e2, mirrored_of h3 h2 (by simp; omega) fun t ht => ?_⟩
  exact pderiv_flip h hs hd hk (by simpa [hk] using ht)

end derivative

/-! ## C120, exchanged dimensions -/

section
variable {K V : Type} [Field K] [LinearOrder K] [IsStrictOrderedRing K] [AddCommGroup V] [Module K V]

/-- where dimension `e` goes when `d` and `d + 1` are exchanged -/
def exchange (d e : ℕ) : ℕ := if e = d then d + 1 else if e = d + 1 then d else e

theorem swapAt_getElem? {α : Type} : ∀ (d : ℕ) (l : List α) (e : ℕ), d + 1 < l.length → (swapAt d l)[exchange d e]? = l[e]?
  | _, [], _, h => by simp at h
  | _, [_], _, h => by simp at h
  | 0, _ :: _ :: _, 0, _ => rfl
  | 0, _ :: _ :: _, 1, _ => rfl
  | 0, _ :: _ :: _, _ + 2, _ => by simp [exchange, swapAt]
  | _ + 1, _ :: _ :: _, 0, _ => by simp [exchange, swapAt]
  | d + 1, x :: y :: l, e + 1, h => by
    have ih := swapAt_getElem? d (y :: l) e (by simpa using h)
    have he : exchange (d + 1) (e + 1) = exchange d e + 1 := by
      unfold exchange
      split_ifs <;> omega
    rw [he]
    simpa [swapAt] using ih

theorem exchange_exchange (d e : ℕ) : exchange d (exchange d e) = e := by
  unfold exchange
  split_ifs <;> omega

theorem exchange_lt {d e n : ℕ} (h : d + 1 < n) (he : e < n) : exchange d e < n := by
  unfold exchange
  split_ifs <;> omega

theorem swapAt_modify {α : Type} (d e : ℕ) (l : List α) (h : d + 1 < l.length) (φ : α → α) :
    swapAt d (l.modify e φ) = (swapAt d l).modify (exchange d e) φ := by
  apply List.ext_getElem?
  intro i
  rw [← exchange_exchange d i, swapAt_getElem? d _ _ (by simpa using h), List.getElem?_modify, List.getElem?_modify,
    swapAt_getElem? d _ _ h]
  have : (exchange d e = exchange d (exchange d i)) ↔ e = exchange d i :=
    ⟨fun hh => by rw [← exchange_exchange d e, hh, exchange_exchange], fun hh => by rw [← hh]⟩
  simp only [this]

theorem swapAt_set {α : Type} (d e : ℕ) (l : List α) (h : d + 1 < l.length) (x : α) :
    swapAt d (l.set e x) = (swapAt d l).set (exchange d e) x := by
  have hm : ∀ (l : List α) (e : ℕ), l.modify e (fun _ => x) = l.set e x := by
    intro l e
    apply List.ext_getElem?
    intro i
    rw [List.getElem?_modify, List.getElem?_set']
    by_cases hi : e = i
    · subst hi; simp; rfl
    · simp [hi]
  rw [← hm, ← hm]
  exact swapAt_modify d e l h (fun _ => x)

theorem swapAt_zipWith {α β γ : Type} (φ : α → β → γ) : ∀ (d : ℕ) (a : List α) (b : List β), a.length = b.length →
    swapAt d (List.zipWith φ a b) = List.zipWith φ (swapAt d a) (swapAt d b)
  | 0, [], [], _ => rfl
  | 0, [_], [_], _ => rfl
  | 0, _ :: _ :: _, _ :: _ :: _, _ => rfl
  | _ + 1, [], [], _ => rfl
  | d + 1, _ :: a, _ :: b, h => by simp [swapAt, swapAt_zipWith φ d a b (by simpa using h)]

theorem swapAt_map {α β : Type} (φ : α → β) : ∀ (d : ℕ) (a : List α), swapAt d (a.map φ) = (swapAt d a).map φ
  | 0, [] => rfl
  | 0, [_] => rfl
  | 0, _ :: _ :: _ => rfl
  | _ + 1, [] => rfl
  | d + 1, _ :: a => by simp [swapAt, swapAt_map φ d a]

theorem swapAt_perm {α : Type} : ∀ (d : ℕ) (a : List α), (swapAt d a).Perm a
  | 0, [] => .refl _
  | 0, [_] => .refl _
  | 0, _ :: _ :: _ => .swap ..
  | _ + 1, [] => .refl _
  | d + 1, _ :: a => .cons _ (swapAt_perm d a)

theorem size_swapAt (d : ℕ) (a : List ℕ) : size (swapAt d a) = size a := ((swapAt_perm d a).map _).prod_eq

/-- C120. The spline with exchanged dimensions has the same values at exchanged parameters. -/
theorem C120_exchange_evaluate (d : ℕ) (s s' : Spline V) (h : Exchanged d s s') (t : List K) (ht : t.length = s.degrees.length) :
    SameResult (s'.evaluate (swapAt d t)) (s.evaluate t) := by
  have hs := h.wf.computes (K := K)
  refine ⟨_, ?_, hs.eval t ht⟩
  have := (h.computes hs).eval (swapAt d t) (by rw [length_swapAt, length_swapAt]; exact ht)
  rwa [swapAt_swapAt] at this

/-- C120. Order elevation: of the dimension that has taken the place. -/
theorem C120_exchange_elevate (d : ℕ) (s s' : Spline V) (h : Exchanged d s s') (e p : ℕ) (hp : s.degrees[e]? = some p)
    (hsize : size (s.degrees.set e (p + 1)) < 2 ^ 31) :
    ∃ r r', Spline.orderElevate K s e = .ok r ∧ Spline.orderElevate K s' (exchange d e) = .ok r' ∧ Exchanged d r r' := by
  have hs := h.wf.computes (K := K)
  have e0 := swapAt_set d e s.degrees h.inside (p + 1)
  obtain ⟨r, e1, h1⟩ := C12_order_elevate s _ _ hs e p hp hsize
  obtain ⟨r', e2, h2⟩ := C12_order_elevate s' _ _ (h.computes hs) (exchange d e) p (by rw [swapAt_getElem? d _ _ h.inside]; exact hp)
    (by rw [← e0, size_swapAt]; exact hsize)
  rw [← e0] at h2
  exact ⟨r, r', e1, e2, exchanged_of h1 h2 (by simpa using h.inside) fun t _ => by simp only [swapAt_swapAt]⟩

/-- C120. Splitting. -/
theorem C120_exchange_split (d : ℕ) (s s' : Spline V) (h : Exchanged d s s') (e : ℕ) (he : e < s.degrees.length) (z : K) (h0 : 0 < z)
    (h1 : z < 1) :
    ∃ a b a' b', s.splitAt z e = .ok (a, b) ∧ s'.splitAt z (exchange d e) = .ok (a', b') ∧ Exchanged d a a' ∧ Exchanged d b b' := by
  have hs := h.wf.computes (K := K)
  obtain ⟨a, b, e1, ha, hb⟩ := C31_split s _ _ hs e he z h0 h1
  obtain ⟨a', b', e2, ha', hb'⟩ := C31_split s' _ _ (h.computes hs) (exchange d e)
    (by rw [length_swapAt]; exact exchange_lt h.inside he) z h0 h1
  refine ⟨a, b, a', b', e1, e2, exchanged_of ha ha' h.inside fun t ht => ?_, exchanged_of hb hb' h.inside fun t ht => ?_⟩
  all_goals
    rw [← swapAt_modify d e t (by rw [ht]; exact h.inside), swapAt_swapAt]

/-- C120. Sums. -/
theorem C120_exchange_add (d : ℕ) (cfg : Cfg) (a a' b b' : Spline V) (ha : Exchanged d a a') (hb : Exchanged d b b')
    (hf : Fits cfg a.degrees b.degrees) :
    ∃ r r', Spline.addOp K cfg a b = .ok r ∧ Spline.addOp K cfg a' b' = .ok r' ∧ Exchanged d r r' := by
  have ca := ha.wf.computes (K := K)
  have cb := hb.wf.computes (K := K)
  have hl := hf.dims
  have e0 : maxDegrees (swapAt d a.degrees) (swapAt d b.degrees) = swapAt d (maxDegrees a.degrees b.degrees) :=
    (swapAt_zipWith max d _ _ hl.symm).symm
  have hf' : Fits cfg (swapAt d a.degrees) (swapAt d b.degrees) :=
    ⟨by rw [length_swapAt, length_swapAt]; exact hl, fun p hp => hf.rounds p (by
      rcases List.mem_append.mp hp with hp | hp
      · exact List.mem_append_left _ ((swapAt_perm d _).mem_iff.mp hp)
      · exact List.mem_append_right _ ((swapAt_perm d _).mem_iff.mp hp)), hf.rounds2, by rw [e0, size_swapAt]; exact hf.small⟩
  obtain ⟨r, e1, h1⟩ := C16_add cfg a b _ _ _ _ ca cb hf
  obtain ⟨r', e2, h2⟩ := C16_add cfg a' b' _ _ _ _ (ha.computes ca) (hb.computes cb) hf'
  rw [e0] at h2
  have := ha.inside
  exact ⟨r, r', e1, e2, exchanged_of h1 h2 (by simp [maxDegrees]; omega) fun t _ => by simp only [swapAt_swapAt]⟩

/-- C120. Products. -/
theorem C120_exchange_mul {W U : Type} [AddCommGroup W] [Module K W] [AddCommGroup U] [Module K U] (d : ℕ) (cfg : Cfg)
    (hmax : cfg.maxBinom ≤ 68) (mul : V → W → U) (B : V →ₗ[K] W →ₗ[K] U) (hB : ∀ x y, mul x y = B x y) (a a' : Spline V) (b b' : Spline W)
    (ha : Exchanged d a a') (hb : Exchanged d b b') (hdim : b.degrees.length = a.degrees.length)
    (hdeg : ∀ p ∈ sumDegrees a.degrees b.degrees, p < cfg.maxBinom) :
    ∃ r r', Spline.mulOp K cfg mul a b = .ok r ∧ Spline.mulOp K cfg mul a' b' = .ok r' ∧ Exchanged d r r' := by
  have ca := ha.wf.computes (K := K)
  have cb := hb.wf.computes (K := K)
  have e0 : sumDegrees (swapAt d a.degrees) (swapAt d b.degrees) = swapAt d (sumDegrees a.degrees b.degrees) :=
    (swapAt_zipWith (· + ·) d _ _ hdim.symm).symm
  obtain ⟨r, e1, h1⟩ := C21_mul cfg hmax mul B hB a b _ _ _ _ ca cb hdim hdeg
  obtain ⟨r', e2, h2⟩ := C21_mul cfg hmax mul B hB a' b' _ _ _ _ (ha.computes ca) (hb.computes cb)
    (by rw [length_swapAt, length_swapAt]; exact hdim) (by
      rw [e0]; exact fun p hp => hdeg p ((swapAt_perm d _).mem_iff.mp hp))
  rw [e0] at h2
  have := ha.inside
  exact ⟨r, r', e1, e2, exchanged_of h1 h2 (by simp [sumDegrees]; omega) fun t _ => by simp only [swapAt_swapAt]⟩

section box
variable [Coords K V] [LawfulCoords K V]

/-- C120. The bounding box. -/
theorem C120_exchange_box (d : ℕ) (s s' : Spline V) (h : Exchanged d s s') :
    SameResult (s'.minimumCorner K) (s.minimumCorner K) ∧ SameResult (s'.maximumCorner K) (s.maximumCorner K) ∧
    SameResult (s'.fitsIntoUnitCube K) (s.fitsIntoUnitCube K) := by
  refine box_of_mem h.wf h.wf' fun x => ⟨fun hx => ?_, fun hx => ?_⟩
  · obtain ⟨idx, hi, e⟩ := (mem_cps_iff h.wf' x).mp hx
    have hv := valid_swap hi d
    rw [h.degrees, swapAt_swapAt] at hv
    refine (mem_cps_iff h.wf x).mpr ⟨_, hv, ?_⟩
    rw [← h.points _ hv, swapAt_swapAt, e]
  · obtain ⟨idx, hi, e⟩ := (mem_cps_iff h.wf x).mp hx
    refine (mem_cps_iff h.wf' x).mpr ⟨swapAt d idx, by rw [h.degrees]; exact valid_swap hi d, (h.points idx hi).trans e⟩

end box

section compose
variable {W : Type} [AddCommGroup W] [Module K W] [Coords K W] [LawfulCoords K W]

/-- C120. Composition with an inner spline with exchanged dimensions. -/
theorem C120_exchange_compose_inner (d : ℕ) (cfg : Cfg) (hmax : cfg.maxBinom ≤ 68) (outer : Spline V) (inner inner' : Spline W)
    (ho : outer.WF) (h : Exchanged d inner inner') (hdim : outer.degrees.length = Coords.n K W)
    (hcube : inner.fitsIntoUnitCube K = .ok true) (hdeg : ∀ p ∈ outer.degrees, p < cfg.maxBinom)
    (hdeg' : ∀ q ∈ inner.degrees, outer.degrees.sum * q < cfg.maxBinom) :
    ∃ r r', outer.compose K cfg inner = .ok r ∧ outer.compose K cfg inner' = .ok r' ∧ Exchanged d r r' := by
  have co := ho.computes (K := K)
  have ci := h.wf.computes (K := K)
  have hcube' : inner'.fitsIntoUnitCube K = .ok true := by
    obtain ⟨u, h1, h2⟩ := (C120_exchange_box (K := K) d inner inner' h).2.2
    rw [hcube] at h2
    cases h2
    exact h1
  obtain ⟨r, e1, h1⟩ := C26_compose cfg hmax outer inner _ _ _ _ co ci hdim hcube hdeg hdeg'
  obtain ⟨r', e2, h2⟩ := C26_compose cfg hmax outer inner' _ _ _ _ co (h.computes ci) hdim hcube' hdeg
    (fun q hq => hdeg' q ((swapAt_perm d _).mem_iff.mp hq))
  rw [← swapAt_map] at h2
  exact ⟨r, r', e1, e2, exchanged_of h1 h2 (by simpa using h.inside) fun t _ => by simp only [swapAt_swapAt]⟩

end compose
end

section derivative
variable {𝕜 V : Type} [NontriviallyNormedField 𝕜] [CharZero 𝕜] [NormedAddCommGroup V] [NormedSpace 𝕜 V]

theorem pderiv_swap {d : ℕ} {s s' : Spline V} {ds : List ℕ} {f : List 𝕜 → V} (h : Exchanged d s s') (hs : s.Computes ds f)
    (hd : d + 1 < ds.length) {k : List ℕ} {t : List 𝕜} (hk : k.length = ds.length) (ht : t.length = ds.length) :
    pderiv k (fun t => f (swapAt d t)) t = pderiv (swapAt d k) f (swapAt d t) := by
  have hs' := h.computes hs
  have hl : (swapAt d ds).length = ds.length := length_swapAt d ds
  refine hs'.pderiv_unique (fun k t => pderiv (swapAt d k) f (swapAt d t)) (fun t ht => ?_) ?_ k t (hk.trans hl.symm) (ht.trans hl.symm)
  · have e1 : swapAt d (List.replicate (swapAt d ds).length 0) = List.replicate ds.length 0 := by
      rw [hl, List.eq_replicate_iff]
      exact ⟨by rw [length_swapAt, List.length_replicate], fun x hx => (List.mem_replicate.mp ((swapAt_perm d _).mem_iff.mp hx)).2⟩
    show pderiv (swapAt d _) f _ = _
    rw [e1, hs.pderiv_zero (by rw [length_swapAt]; exact ht.trans hl)]
  · intro k e ke t te hk hke ht hte
    rw [hl] at hk ht
    show HasDerivAt (fun x => pderiv (swapAt d k) f (swapAt d (t.set e x))) (pderiv (swapAt d (k.set e (ke + 1))) f (swapAt d t)) te
    simp only [swapAt_set d e t (by omega), swapAt_set d e k (by omega)]
    exact hs.hasDerivAt (by rw [length_swapAt]; exact hk) (by rw [swapAt_getElem? d k e (by omega)]; exact hke) (by rw [length_swapAt]; exact ht)
      (by rw [swapAt_getElem? d t e (by omega)]; exact hte)

/-- C120. Derivatives, with the orders exchanged as well. -/
theorem C120_exchange_evaluate_derivative (d : ℕ) (cfg : Cfg) (hmax : cfg.maxBinom ≤ 68) (s s' : Spline V) (h : Exchanged d s s')
    (hdeg : ∀ p ∈ s.degrees, p < cfg.maxBinom) (k : List ℕ) (hk : k.length = s.degrees.length) (t : List 𝕜)
    (ht : t.length = s.degrees.length) :
    SameResult (s'.evaluateDerivative cfg (swapAt d t) (swapAt d k)) (s.evaluateDerivative cfg t k) := by
  have hs := h.wf.computes (K := 𝕜)
  refine ⟨_, ?_, C14_evaluate_derivative cfg hmax s _ _ hs hdeg k hk t ht⟩
  rw [C14_evaluate_derivative cfg hmax s' _ _ (h.computes hs) (fun p hp => hdeg p ((swapAt_perm d _).mem_iff.mp hp)) (swapAt d k)
    (by rw [length_swapAt, length_swapAt]; exact hk) (swapAt d t) (by rw [length_swapAt, length_swapAt]; exact ht),
    pderiv_swap h hs h.inside (by rw [length_swapAt]; exact hk) (by rw [length_swapAt]; exact ht), swapAt_swapAt, swapAt_swapAt]

/-- C120. Derivative splines, with the orders exchanged as well. -/
theorem C120_exchange_derivative_spline (d : ℕ) (cfg : Cfg) (hmax : cfg.maxBinom ≤ 68) (s s' : Spline V) (h : Exchanged d s s') (k : List ℕ)
    (hk : k.length = s.degrees.length) (hle : ∀ (e o p : ℕ), k[e]? = some o → s.degrees[e]? = some p → o ≤ p) (hord : ∀ o ∈ k, o < cfg.maxBinom)
    (hsize : size s.degrees < 2 ^ 64) :
    ∃ r r', s.derivativeSpline 𝕜 cfg k = .ok r ∧ s'.derivativeSpline 𝕜 cfg (swapAt d k) = .ok r' ∧ Exchanged d r r' := by
  have hs := h.wf.computes (K := 𝕜)
  have hin := h.inside
  obtain ⟨r, e1, h1⟩ := C13_derivative_spline cfg hmax s _ _ hs k hk hle hord hsize
  obtain ⟨r', e2, h2⟩ := C13_derivative_spline cfg hmax s' _ _ (h.computes hs) (swapAt d k) (by rw [length_swapAt, length_swapAt]; exact hk)
    (fun e o p h1 h2 => by
      rw [← exchange_exchange d e, swapAt_getElem? d _ _ (by omega)] at h1 h2
      exact hle _ _ _ h1 h2)
    (fun o ho => hord o ((swapAt_perm d _).mem_iff.mp ho)) (by rw [size_swapAt]; exact hsize)
  rw [← swapAt_zipWith _ d _ _ hk.symm] at h2
  refine ⟨r, r', e1, e2, exchanged_of h1 h2 (by simp; omega) fun t ht => ?_⟩
  have ht' : t.length = s.degrees.length := by simpa [hk] using ht
  rw [pderiv_swap h hs h.inside (by rw [length_swapAt]; exact hk) (by rw [length_swapAt]; exact ht'), swapAt_swapAt, swapAt_swapAt]

end derivative
end Bezman.Props
