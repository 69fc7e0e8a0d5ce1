import Verif.Proofs.Move
import Verif.Proofs.SplitMany
import Verif.Props.Crash
import Verif.Props.Examples

/-! # C102: moves -/

namespace Bezman.Props
open Spec Move

section
variable {K V : Type}

/-- C102. Moving is only an optimisation: in every program over splines that does not read a variable after it was moved from (before it
is assigned again), all variables but the moved-from ones have the values they would have if moves were copies and `std::swap`
exchanged two values; errors are the same. -/
theorem C102_moves (vars : List (Spline V)) (p : List (Stmt (Spline V))) (hp : Careful ∅ p) :
    BothEnd (SameOutside (movedAfterAll ∅ p)) (exec vars p) (byValueAll vars p) :=
  exec_same ⟨rfl, fun _ _ => rfl⟩ p hp

/-- C102. The same for rational splines. -/
theorem C102_rational_moves (vars : List (RSpline K V)) (p : List (Stmt (RSpline K V))) (hp : Careful ∅ p) :
    BothEnd (SameOutside (movedAfterAll ∅ p)) (exec vars p) (byValueAll vars p) :=
  exec_same ⟨rfl, fun _ _ => rfl⟩ p hp

/-- a program: `c = a + b; b = std::move(a); std::swap(b, c); a = c; a *= 2` -/
example : Careful ∅ ([.call 2 [0, 1] (fun | [x, y] => Spline.addAssign ℚ Ex.cfg x y | _ => .error .ub), .move 1 0, .swap 1 2, .copy 0 2,
    .call 0 [0] (fun | [x] => x.smulOp (2 : ℚ) | _ => .error .ub)] : List (Stmt (Spline ℚ))) := by
  simp [Careful, ReadsOutside, movedAfter]

example : exec [Ex.line (1 : ℚ) 2, Ex.line 5 7, Ex.line 0 0]
    [.call 2 [0, 1] (fun | [x, y] => Spline.addAssign ℚ Ex.cfg x y | _ => .error .ub), .move 1 0, .swap 1 2, .copy 0 2,
    .call 0 [0] (fun | [x] => x.smulOp (2 : ℚ) | _ => .error .ub)] = .ok [Ex.line 2 4, Ex.line 6 9, Ex.line 1 2] := by
  decide +kernel

theorem byValue_inv {α : Type} {P : α → Prop} {vars vars' : List α} {c : Stmt α} (hv : ∀ x ∈ vars, P x)
    (hc : ∀ k args op, c = .call k args op → ∀ xs, (∀ x ∈ xs, P x) → ∀ y, op xs = .ok y → P y) (h : byValue vars c = .ok vars') :
    ∀ x ∈ vars', P x := by
  have hrd : ∀ {l : List α} {j x}, (∀ x ∈ l, P x) → rd l j = .ok x → P x := fun hl e => hl _ (List.mem_of_getElem? (rd_ok_iff.mp e))
  have hwr : ∀ {l l' : List α} {i x}, (∀ x ∈ l, P x) → P x → wr l i x = .ok l' → ∀ y ∈ l', P y := by
    intro l l' i x hl hx e y hy
    obtain ⟨_, rfl⟩ := wr_eq e
    rcases List.mem_or_eq_of_mem_set hy with h | rfl
    · exact hl y h
    · exact hx
  cases c with
  | copy i j =>
    obtain ⟨x, h1, h2⟩ := bind_eq_ok.mp h
    exact hwr hv (hrd hv h1) h2
  | move i j =>
    obtain ⟨x, h1, h2⟩ := bind_eq_ok.mp h
    exact hwr hv (hrd hv h1) h2
  | construct j =>
    obtain ⟨x, h1, h2⟩ := bind_eq_ok.mp h
    cases h2
    intro y hy
    rcases List.mem_append.mp hy with hy | hy
    · exact hv y hy
    · rw [List.mem_singleton.mp hy]; exact hrd hv h1
  | constructMove j =>
    obtain ⟨x, h1, h2⟩ := bind_eq_ok.mp h
    cases h2
    intro y hy
    rcases List.mem_append.mp hy with hy | hy
    · exact hv y hy
    · rw [List.mem_singleton.mp hy]; exact hrd hv h1
  | swap i j =>
    obtain ⟨x, h1, h⟩ := bind_eq_ok.mp h
    obtain ⟨y, h2, h⟩ := bind_eq_ok.mp h
    obtain ⟨l, h3, h⟩ := bind_eq_ok.mp h
    exact hwr (hwr hv (hrd hv h2) h3) (hrd hv h1) h
  | call k args op =>
    obtain ⟨xs, h1, h⟩ := bind_eq_ok.mp h
    obtain ⟨y, h2, h⟩ := bind_eq_ok.mp h
    refine hwr hv (hc k args op rfl xs ?_ y h2) h
    clear * - hrd hv h1
    induction args generalizing xs with
    | nil => cases h1; simp
    | cons a args ih =>
      rw [List.mapM_cons] at h1
      obtain ⟨x, h3, h1⟩ := bind_eq_ok.mp h1
      obtain ⟨ys, h4, h1⟩ := bind_eq_ok.mp h1
      cases h1
      intro z hz
      rcases List.mem_cons.mp hz with rfl | hz
      · exact hrd hv h3
      · exact ih ys h4 z hz

/-- C102. Consistency survives every such program: if the calls in it turn consistent splines into consistent ones, all variables but the
moved-from ones are consistent afterwards. -/
theorem C102_consistent (vars vars' : List (Spline V)) (p : List (Stmt (Spline V))) (hp : Careful ∅ p) (hv : ∀ s ∈ vars, s.WF)
    (hc : ∀ k args op, .call k args op ∈ p → ∀ xs, (∀ x ∈ xs, Spline.WF x) → ∀ y, op xs = .ok y → y.WF)
    (h : exec vars p = .ok vars') (i : ℕ) (s : Spline V) (hi : i ∉ movedAfterAll ∅ p) (hs : vars'[i]? = some s) : s.WF := by
  have hsame := C102_moves vars p hp
  rw [h] at hsame
  cases hb : byValueAll vars p with
  | error e => rw [hb] at hsame; exact hsame.elim
  | ok w =>
    rw [hb] at hsame
    have hw : ∀ s ∈ w, s.WF := by
      clear hsame h hi hs hp
      induction p generalizing vars with
      | nil => cases hb; exact hv
      | cons c p ih =>
        obtain ⟨v1, h1, h2⟩ := bind_eq_ok.mp hb
        refine ih v1 (byValue_inv hv (fun k args op e => hc k args op (by rw [← e]; simp)) h1)
          (fun k args op hm => hc k args op (by simp [hm])) h2
    rw [hsame.2 i hi] at hs
    exact hw s (List.mem_of_getElem? hs)

/-- the hypotheses are met: `b = std::move(a); b *= 2; a = b` -/
example (vars' : List (Spline ℚ)) (s : Spline ℚ)
    (h : exec [Ex.line (1 : ℚ) 2, Ex.curve 5 7 9] [.move 1 0, .call 1 [1] (fun | [x] => x.smulOp (2 : ℚ) | _ => .error .ub), .copy 0 1] = .ok vars')
    (hs : vars'[0]? = some s) : s.WF := by
  refine C102_consistent _ vars' _ ?_ ?_ ?_ h 0 s (by simp [movedAfterAll, movedAfter]) hs
  · simp [Careful, ReadsOutside, movedAfter]
  · intro s hs
    simp only [List.mem_cons, List.not_mem_nil, or_false] at hs
    rcases hs with rfl | rfl
    · exact Ex.line_wf ..
    · exact Ex.curve_wf ..
  · intro k args op hm xs hx y hy
    simp only [List.mem_cons, List.not_mem_nil, or_false, reduceCtorEq, false_or, Stmt.call.injEq] at hm
    obtain ⟨rfl, rfl, rfl⟩ := hm
    match xs, hx, hy with
    | [x], hx, hy => exact (Spline.mapCps_wf (hx x (by simp)) hy).1
    | [], _, hy => cases hy
    | _ :: _ :: _, _, hy => cases hy

/-- C102. `std::swap` exchanges two variables exactly, also a variable with itself; it does not matter what a move leaves behind. -/
theorem C102_swap {α : Type} [HasMove α] (vars : List α) (i j : ℕ) (x y : α) (hi : vars[i]? = some x) (hj : vars[j]? = some y) :
    exec vars [.swap i j] = .ok ((vars.set i y).set j x) := by
  obtain ⟨hil, _⟩ := List.getElem?_eq_some_iff.mp hi
  obtain ⟨hjl, _⟩ := List.getElem?_eq_some_iff.mp hj
  simp only [exec, Stmt.exec, swapVars, moveAssign, rd_ok hi, rd_ok hj, bind_ok]
  rw [wr_ok _ hil]
  simp only [bind_ok]
  rw [wr_ok _ (by simpa using hjl)]
  simp only [bind_ok]
  rw [wr_ok _ (by simpa using hjl), List.set_set]
  rfl

example : exec [Ex.line (1 : ℚ) 2, Ex.line 5 7] [.swap 0 1] = .ok [Ex.line 5 7, Ex.line 1 2] ∧
    exec [Ex.line (1 : ℚ) 2, Ex.line 5 7] [.swap 1 1] = .ok [Ex.line 1 2, Ex.line 5 7] := by decide +kernel

/-- C102. Constructing from `std::move(x)` copies: `x` keeps its value. -/
theorem C102_construct {α : Type} [HasMove α] (vars : List α) (j : ℕ) (x : α) (hj : vars[j]? = some x) :
    exec vars [.constructMove j] = .ok (vars ++ [x]) := by
  simp only [exec, Stmt.exec, rd_ok hj, bind_ok]
  rfl

end

/-! ## Moved-from objects -/

theorem loop_ok_or {σ : Type} {n : ℕ} {f : ℕ → σ → M σ} {s : σ} {e : Err} {P : σ → Prop} (hs : P s)
    (h : ∀ k t, k < n → P t → (∃ t', f k t = .ok t' ∧ P t') ∨ f k t = .error e) :
    (∃ t, loop n f s = .ok t ∧ P t) ∨ loop n f s = .error e := by
  induction n with
  | zero => exact .inl ⟨s, rfl, hs⟩
  | succ n ih =>
    rw [loop_succ]
    rcases ih fun k t hk => h k t (by omega) with ⟨t, h1, h2⟩ | h1
    · rw [h1]; exact h n t (by omega) h2
    · rw [h1]; exact .inr rfl

section
variable {K V : Type} [One K] [Sub K] [Add V] [SMul K V]

theorem evaluate_nil {s : Spline V} (hc : s.cps = []) (ho : s.offsets.length = s.dim) {t : List K} (ht : t.length = s.dim) :
    s.evaluate t = .error .ub := by
  have rdn : ∀ i, rd ([] : List V) i = .error .ub := fun i => rd_ub (by simp)
  unfold Spline.evaluate
  rw [hc]
  have key := loop_ok_or (n := s.dim) (e := Err.ub) (P := fun r : List V × ℕ => r.1 = []) (s := ([], s.ncp))
    (f := fun par_dim (r : List V × Nat) => do
      let factor ← rd t par_dim
      let inv_factor := 1 - factor
      let p ← rd s.degrees par_dim
      let off ← rd s.offsets par_dim
      let ctps_to_consider := r.2 / (p + 1)
      let m ← loop ctps_to_consider (fun starting_point_id m =>
        let offset := (off * (p + 1)) * starting_point_id
        loop (p + 1) (fun i m =>
          loop (p - i) (fun j m => do
            let a ← rd m (j * off + offset)
            let b ← rd m ((j + 1) * off + offset)
            wr m (j * off + offset) (inv_factor • a + factor • b)) m) m) r.1
      pure (m, ctps_to_consider)) rfl (by
    rintro d ⟨m, c⟩ hd hm
    subst hm
    rw [rd_getElem (show d < t.length by omega), bind_ok, rd_getElem (show d < s.degrees.length from hd), bind_ok,
      rd_getElem (show d < s.offsets.length by omega), bind_ok]
    rcases loop_ok_or (n := c / (s.degrees[d] + 1)) (e := Err.ub) (P := fun m : List V => m = []) (s := [])
      (f := fun starting_point_id m =>
        loop (s.degrees[d] + 1) (fun i m =>
          loop (s.degrees[d] - i) (fun j m => do
            let a ← rd m (j * s.offsets[d] + s.offsets[d] * (s.degrees[d] + 1) * starting_point_id)
            let b ← rd m ((j + 1) * s.offsets[d] + s.offsets[d] * (s.degrees[d] + 1) * starting_point_id)
            wr m (j * s.offsets[d] + s.offsets[d] * (s.degrees[d] + 1) * starting_point_id) ((1 - t[d]) • a + t[d] • b)) m) m) rfl
      (by
        rintro k _ _ rfl
        refine loop_ok_or rfl ?_
        rintro i _ _ rfl
        refine loop_ok_or rfl ?_
        rintro j _ _ rfl
        rw [rdn]
        exact .inr rfl) with ⟨m, h1, h2⟩ | h1
    · exact .inl ⟨(m, c / (s.degrees[d] + 1)), congrArg (fun x : M (List V) => x >>= fun m => pure (m, c / (s.degrees[d] + 1))) h1, h2⟩
    · exact .inr (congrArg (fun x : M (List V) => x >>= fun m => pure (m, c / (s.degrees[d] + 1))) h1))
  rcases key with ⟨r, h1, h2⟩ | h1
  · rw [h1, bind_ok, h2, rdn]
  · rw [h1]; rfl

/-- C102. After `i = std::move(j)`: `i` is the spline that was in `j`. `j` still reports its degrees and its number of control points,
but has no control points: `Evaluate` and multiplication by a number are undefined behaviour. -/
theorem C102_moved_from (vars : List (Spline V)) (i j : ℕ) (s : Spline V) (hs : s.WF) (hj : vars[j]? = some s) (hi : i < vars.length)
    (hij : i ≠ j) : ∃ vars' s', exec vars [.move i j] = .ok vars' ∧ vars'[i]? = some s ∧ vars'[j]? = some s' ∧
      (∀ k, k ≠ i → k ≠ j → vars'[k]? = vars[k]?) ∧ s'.degrees = s.degrees ∧ s'.ncp = s.ncp ∧ s'.cps = [] ∧
      (∀ t : List K, t.length = s.dim → s'.evaluate t = .error .ub) ∧ (∀ c : K, s'.smulOp c = .error .ub) := by
  obtain ⟨hjl, _⟩ := List.getElem?_eq_some_iff.mp hj
  refine ⟨(vars.set i s).set j { s with cps := [] }, { s with cps := [] }, ?_, ?_, ?_, ?_, rfl, rfl, rfl, ?_, ?_⟩
  · simp only [exec, Stmt.exec, moveAssign, rd_ok hj, bind_ok]
    rw [wr_ok _ hi]
    simp only [bind_ok]
    rw [wr_ok _ (by simpa using hjl)]
    rfl
  · rw [List.getElem?_set_ne (Ne.symm hij), List.getElem?_set_self hi]
  · rw [List.getElem?_set_self (by simpa using hjl)]
  · intro k hki hkj
    rw [List.getElem?_set_ne (Ne.symm hkj), List.getElem?_set_ne (Ne.symm hki)]
  · exact fun t ht => evaluate_nil (s := { s with cps := [] }) rfl hs.off_len ht
  · intro c
    unfold Spline.smulOp Spline.mapCps
    rw [loop_first_error]
    · rfl
    · rw [rd_ub (by simp)]; rfl
    · show 0 < s.ncp
      rw [hs.ncp_eq]; exact size_pos _

omit [One K] [Sub K] [Add V] [SMul K V] in
/-- C102. `UpdateDegrees` makes a moved-from spline the same as a spline newly constructed with these degrees. -/
theorem C102_moved_from_update [Zero V] (s : Spline V) (hs : s.WF) (new_degrees : List ℕ) (hl : new_degrees.length = s.dim) :
    ∃ r, (HasMove.movedFrom s).updateDegrees new_degrees = .ok r ∧ Spline.ofDegrees new_degrees = .ok r ∧ r.WF := by
  have hpos : 0 < new_degrees.length := by rw [hl]; exact hs.dim_pos
  refine ⟨⟨new_degrees, size new_degrees, offsetsOf new_degrees, List.replicate (size new_degrees) 0⟩, ?_, ?_, ?_⟩
  · unfold Spline.updateDegrees
    rw [Spline.updateIndexOffsets_ok (by show s.offsets.length = _; rw [hs.off_len, hl]) hpos, Spline.countCps_eq]
    simp [HasMove.movedFrom, Spline.resize]
  · unfold Spline.ofDegrees
    simp [Spline.updateIndexOffsets_ok (os := List.replicate new_degrees.length 0) (ps := new_degrees) (by simp) hpos, Spline.countCps_eq, Spline.resize]
  · exact ⟨hpos, rfl, rfl, by simp⟩

/-- C102. The same for a rational spline that was moved from. -/
theorem C102_rational_moved_from [Mul K] [Add K] [Zero K] [BEq K] [ScalarDiv K V] (vars : List (RSpline K V)) (i j : ℕ)
    (r : RSpline K V) (hn : r.num.WF) (hj : vars[j]? = some r) (hi : i < vars.length) (hij : i ≠ j) : ∃ vars' r', exec vars [.move i j] = .ok vars' ∧ vars'[i]? = some r ∧ vars'[j]? = some r' ∧
      (∀ k, k ≠ i → k ≠ j → vars'[k]? = vars[k]?) ∧ r'.num.degrees = r.num.degrees ∧ r'.wt.degrees = r.wt.degrees ∧
      r'.num.cps = [] ∧ r'.wt.cps = [] ∧ (∀ t : List K, t.length = r.num.dim → r'.evaluate t = .error .ub) := by
  obtain ⟨hjl, _⟩ := List.getElem?_eq_some_iff.mp hj
  refine ⟨(vars.set i r).set j (HasMove.movedFrom r), HasMove.movedFrom r, ?_, ?_, ?_, ?_, rfl, rfl, rfl, rfl, ?_⟩
  · simp only [exec, Stmt.exec, moveAssign, rd_ok hj, bind_ok]
    rw [wr_ok _ hi]
    simp only [bind_ok]
    rw [wr_ok _ (by simpa using hjl)]
    rfl
  · rw [List.getElem?_set_ne (Ne.symm hij), List.getElem?_set_self hi]
  · rw [List.getElem?_set_self (by simpa using hjl)]
  · intro k hki hkj
    rw [List.getElem?_set_ne (Ne.symm hkj), List.getElem?_set_ne (Ne.symm hki)]
  · intro t ht
    unfold RSpline.evaluate
    rw [show (HasMove.movedFrom r).num.evaluate t = .error .ub from
      evaluate_nil (s := (HasMove.movedFrom r).num) rfl hn.off_len ht]
    rfl

end

example : exec [Ex.line (1 : ℚ) 2, Ex.line 5 7] [.move 0 1] = .ok [Ex.line 5 7, ⟨[1], 2, [1], []⟩] ∧
    exec [Ex.line (1 : ℚ) 2, Ex.line 5 7] [.move 0 1, .call 1 [1] (fun | [x] => x.updateDegrees [1] | _ => .error .ub)]
      = .ok [Ex.line 5 7, Ex.line 0 0] := by decide +kernel

end Bezman.Props
