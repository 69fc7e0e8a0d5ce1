import Verif.Spec.Variation
import Verif.Spec.Casteljau
import Verif.Spec.DerivFormula

/-! # Changes of sign under corner cutting -/

namespace Bezman.Spec
variable {K V : Type} {sg : V → SignType}

theorem Calmer.refl (l : List V) : Calmer sg l l := fun _ _ h => h
theorem Calmer.trans {a b c : List V} (h : Calmer sg a b) (h' : Calmer sg b c) : Calmer sg a c := fun w hw t => h' w hw (h w hw t)
theorem Calmer.of_sublist {a b : List V} (h : a.Sublist b) : Calmer sg a b := fun _ _ ⟨l, h1, h2⟩ => ⟨l, h1.trans h, h2⟩

theorem Alternating.left {a b : List SignType} (h : Alternating (a ++ b)) : Alternating a :=
  ⟨fun h' => h.1 (List.mem_append_left _ h'), (List.isChain_append.mp h.2).1⟩
theorem Alternating.right {a b : List SignType} (h : Alternating (a ++ b)) : Alternating b :=
  ⟨fun h' => h.1 (List.mem_append_right _ h'), (List.isChain_append.mp h.2).2.1⟩

theorem TakesSigns.append {a b : List V} {u v : List SignType} : TakesSigns sg a u → TakesSigns sg b v → TakesSigns sg (a ++ b) (u ++ v)
  | ⟨l, h1, h2⟩, ⟨l', h1', h2'⟩ => ⟨l ++ l', h1.append h1', by rw [List.map_append, h2, h2']⟩

theorem Calmer.append {a b a' b' : List V} (h : Calmer sg a' a) (h' : Calmer sg b' b) : Calmer sg (a' ++ b') (a ++ b) := by
  rintro w hw ⟨l, h1, rfl⟩
  obtain ⟨u, v, rfl, hu, hv⟩ := List.sublist_append_iff.mp h1
  rw [List.map_append] at hw ⊢
  exact (h _ hw.left ⟨u, hu, rfl⟩).append (h' _ hw.right ⟨v, hv, rfl⟩)


/-- a new point between two neighbours -/
theorem Calmer.insert {a b c : V} (h : Amid sg a c b) : Calmer sg [a, c, b] [a, b] := by
  rintro w hw ⟨l, h1, rfl⟩
  have key : l.Sublist [a, b] ∨ l = [c] ∨ l = [a, c] ∨ l = [c, b] ∨ l = [a, c, b] := by
    rw [List.sublist_cons_iff] at h1
    rcases h1 with h1 | ⟨r, rfl, h1⟩ <;> rw [List.sublist_cons_iff] at h1 <;>
      rcases h1 with h1 | ⟨r', rfl, h1⟩ <;> rw [List.sublist_cons_iff] at h1 <;> rcases h1 with h1 | ⟨r', rfl, h1⟩ <;>
      simp only [List.sublist_nil] at h1 <;> subst h1 <;> simp [List.sublist_cons_iff]
  have h0 : c ∈ l → sg c ≠ 0 := fun hc e => hw.1 (e ▸ List.mem_map_of_mem hc)
  rcases key with h1 | rfl | rfl | rfl | rfl
  · exact ⟨l, h1, rfl⟩
  · rcases h with h | h | h
    · exact absurd h (h0 (by simp))
    · exact ⟨[a], by simp, by simp [h]⟩
    · exact ⟨[b], by simp, by simp [h]⟩
  · have hac : sg a ≠ sg c := by simpa using hw.2
    rcases h with h | h | h
    · exact absurd h (h0 (by simp))
    · exact absurd h.symm hac
    · exact ⟨[a, b], by simp, by simp [h]⟩
  · have hcb : sg c ≠ sg b := by simpa using hw.2
    rcases h with h | h | h
    · exact absurd h (h0 (by simp))
    · exact ⟨[a, b], by simp, by simp [h]⟩
    · exact absurd h hcb
  · have hac : sg a ≠ sg c ∧ sg c ≠ sg b := by simpa using hw.2
    rcases h with h | h | h
    · exact absurd h (h0 (by simp))
    · exact absurd h.symm hac.1
    · exact absurd h hac.2

/-- a point twice -/
theorem Calmer.twice (a : V) : Calmer sg [a, a] [a] := by
  rintro w hw ⟨l, h1, rfl⟩
  have key : l.Sublist [a] ∨ l = [a, a] := by
    rw [List.sublist_cons_iff] at h1
    rcases h1 with h1 | ⟨r, rfl, h1⟩
    · exact .inl h1
    · rw [List.sublist_cons_iff] at h1
      rcases h1 with h1 | ⟨r', rfl, h1⟩ <;> simp only [List.sublist_nil] at h1 <;> subst h1 <;> simp
  rcases key with h1 | rfl
  · exact ⟨l, h1, rfl⟩
  · exact absurd rfl (by simpa using hw.2 : sg a ≠ sg a)

/-- new points between all neighbours; the first point and the last one remain -/
theorem Calmer.cut (f g : ℕ → V) : ∀ m, (∀ i < m, Amid sg (f i) (g i) (f (i + 1))) →
    Calmer sg (f 0 :: (List.range m).map g ++ [f m]) ((List.range (m + 1)).map f)
  | 0, _ => by simpa using Calmer.twice (f 0)
  | m + 1, h => by
    have ih := Calmer.cut f g m fun i hi => h i (by omega)
    have h1 : Calmer sg (f 0 :: (List.range m).map g ++ [f m, g m, f (m + 1)]) ((List.range (m + 2)).map f) := by
      have e1 := (ih.append (Calmer.refl [f (m + 1)]))
      have e2 := (Calmer.refl (sg := sg) (f 0 :: (List.range m).map g)).append (Calmer.insert (h m (by omega)))
      refine e2.trans ?_
      convert e1 using 1
      · simp
      · rw [List.range_succ (n := m + 1)]; simp
    refine (Calmer.of_sublist ?_).trans h1
    rw [List.range_succ, List.map_append, List.map_singleton]
    simp

variable [One K] [Sub K] [Add V] [SMul K V]

/-- de Casteljau's triangle after `r` rounds: left edge, last row, right edge -/
def front (z : K) (P : ℕ → V) (p r : ℕ) : List V :=
  (List.range r).map (fun i => triangle z P i 0) ++ (List.range (p - r + 1)).map (fun j => triangle z P r j) ++
    (List.range r).map (fun i => triangle z P (r - 1 - i) (p - r + 1 + i))

theorem front_step {z : K} (hz : ∀ a b : V, Amid sg a ((1 - z) • a + z • b) b) (P : ℕ → V) {p r : ℕ} (h : r < p) :
    Calmer sg (front z P p (r + 1)) (front z P p r) := by
  have hc := Calmer.cut (sg := sg) (fun j => triangle z P r j) (fun j => triangle z P (r + 1) j) (p - r) (fun i _ => hz _ _)
  have := ((Calmer.refl (sg := sg) ((List.range r).map (fun i => triangle z P i 0))).append hc).append
    (Calmer.refl (sg := sg) ((List.range r).map (fun i => triangle z P (r - 1 - i) (p - r + 1 + i))))
  suffices e : front z P p (r + 1) = (List.range r).map (fun i => triangle z P i 0) ++
      (triangle z P r 0 :: (List.range (p - r)).map (fun j => triangle z P (r + 1) j) ++ [triangle z P r (p - r)]) ++
      (List.range r).map (fun i => triangle z P (r - 1 - i) (p - r + 1 + i)) by rw [e]; exact this
  unfold front
  rw [show p - (r + 1) + 1 = p - r by omega]
  have e1 : (List.range (r + 1)).map (fun i => triangle z P i 0) = (List.range r).map (fun i => triangle z P i 0) ++ [triangle z P r 0] := by
    rw [List.range_succ]; simp
  have e2 : (List.range (r + 1)).map (fun i => triangle z P (r + 1 - 1 - i) (p - r + i)) =
      triangle z P r (p - r) :: (List.range r).map (fun i => triangle z P (r - 1 - i) (p - r + 1 + i)) := by
    rw [List.range_succ_eq_map, List.map_cons, List.map_map]
    congr 1
    apply List.map_congr_left
    intro i _
    show triangle z P (r + 1 - 1 - (i + 1)) (p - r + (i + 1)) = _
    congr 1 <;> omega
  rw [e1, e2]
  simp

theorem front_zero (z : K) (P : ℕ → V) (p : ℕ) : front z P p 0 = (List.range (p + 1)).map P := by
  simp [front, triangle]

/-- a split: the control points of both parts -/
theorem Calmer.split {z : K} (hz : ∀ a b : V, Amid sg a ((1 - z) • a + z • b) b) (P : ℕ → V) (p : ℕ) :
    Calmer sg ((List.range (p + 1)).map (fun i => triangle z P i 0) ++ (List.range (p + 1)).map (fun i => triangle z P (p - i) i))
      ((List.range (p + 1)).map P) := by
  have h1 : ∀ r ≤ p, Calmer sg (front z P p r) ((List.range (p + 1)).map P) := by
    intro r
    induction r with
    | zero => intro _; rw [front_zero]; exact Calmer.refl _
    | succ r ih => intro h; exact (front_step hz P (by omega)).trans (ih (by omega))
  refine Calmer.trans ?_ (h1 p le_rfl)
  unfold front
  have e1 : (List.range (p + 1)).map (fun i => triangle z P i 0) = (List.range p).map (fun i => triangle z P i 0) ++ [triangle z P p 0] := by
    rw [List.range_succ]; simp
  have e2 : (List.range (p + 1)).map (fun i => triangle z P (p - i) i) =
      [triangle z P p 0] ++ (List.range p).map (fun i => triangle z P (p - 1 - i) (p - p + 1 + i)) := by
    rw [List.range_succ_eq_map, List.map_cons, List.map_map]
    show _ = triangle z P p 0 :: _
    congr 1
    apply List.map_congr_left
    intro i _
    show triangle z P (p - (i + 1)) (i + 1) = _
    congr 1 <;> omega
  rw [e1, e2]
  have := ((Calmer.refl (sg := sg) ((List.range p).map (fun i => triangle z P i 0))).append (Calmer.twice (triangle z P p 0))).append
    (Calmer.refl (sg := sg) ((List.range p).map (fun i => triangle z P (p - 1 - i) (p - p + 1 + i))))
  simpa using this

/-- an elevation -/
theorem Calmer.elevation [Mul K] [Div K] [NatCast K] (P : ℕ → V) (p : ℕ)
    (hz : ∀ i, 0 < i → i ≤ p → ∀ a b : V, Amid sg b ((1 - (i : K) * (1 / ((p + 1 : ℕ) : K))) • a + ((i : K) * (1 / ((p + 1 : ℕ) : K))) • b) a) :
    Calmer sg ((List.range (p + 2)).map (elevationOf K p P)) ((List.range (p + 1)).map P) := by
  have hc := Calmer.cut (sg := sg) P (fun i => elevationOf K p P (i + 1)) p (by
    intro i hi
    unfold elevationOf
    rw [if_neg (by omega), if_neg (by omega)]
    exact hz (i + 1) (by omega) (by omega) _ _)
  convert hc using 1
  rw [List.range_succ, List.range_succ_eq_map]
  simp [elevationOf, Function.comp_def]

omit [Add V] in
/-- the number of changes -/
theorem Calmer.signChanges_le {l' l : List V} (h : Calmer sg l' l) : signChanges (l'.map sg) ≤ signChanges (l.map sg) := by
  have ne : ∀ l : List V, (0 : SignType) ∉ (l.map sg).filter fun x => x ≠ 0 := by simp
  obtain ⟨m, h1, h2⟩ := h (((l'.map sg).filter fun x => x ≠ 0).destutter (· ≠ ·))
    ⟨fun h0 => ne l' ((List.destutter_sublist _ _).subset h0), List.isChain_destutter _ _⟩ (by
      have hs := (List.destutter_sublist (· ≠ ·) ((l'.map sg).filter fun x => x ≠ 0)).trans List.filter_sublist
      obtain ⟨m, h1, h2⟩ := List.sublist_map_iff.mp hs
      exact ⟨m, h1, h2.symm⟩)
  unfold signChanges
  have h3 : (m.map sg).Sublist ((l.map sg).filter fun x => x ≠ 0) := by
    have := (h1.map sg).filter (fun x => decide (x ≠ 0))
    rwa [List.filter_eq_self.mpr (by
      intro x hx
      rw [h2] at hx
      have := (List.destutter_sublist _ _).subset hx
      simpa using (List.mem_filter.mp this).2)] at this
  have h4 := List.IsChain.length_le_length_destutter_ne h3 (by rw [h2]; exact List.isChain_destutter _ _)
  rw [h2] at h4
  omega

end Bezman.Spec
