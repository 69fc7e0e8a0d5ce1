import Verif.Model.RationalDeriv
import Verif.Proofs.History
import Verif.Proofs.Reject

/-! Every operation that returns a spline returns a consistent one, whatever the scalars are. -/

namespace Bezman
open Spec

namespace Spline
variable {K V W U : Type}

/-- consistent and of parametric dimension `n` -/
def Good (n : ℕ) (s : Spline V) : Prop := s.WF ∧ s.dim = n

theorem good_ofDegrees [Zero V] {ds : List ℕ} (h : 0 < ds.length) {s : Spline V} (hr : ofDegrees ds = .ok s) :
    Good ds.length s ∧ s.degrees = ds := by
  obtain ⟨s', h1, h2, h3, _⟩ := ofDegrees_ok (V := V) h
  rw [h1] at hr; injection hr with hr; subst hr
  exact ⟨⟨h2, by rw [dim, h3]⟩, h3⟩

theorem good_ofPoints {ds : List ℕ} (h : 0 < ds.length) {pts : List V} {s : Spline V} (hr : ofPoints ds pts = .ok s) :
    Good ds.length s ∧ s.degrees = ds := by
  by_cases hl : pts.length = size ds
  · rw [(ofPoints_ok h hl).1] at hr; injection hr with hr; subst hr
    exact ⟨⟨(ofPoints_ok h hl).2, rfl⟩, rfl⟩
  · rw [ofPoints_assert h hl] at hr; cases hr

theorem setControlPoint_good {n : ℕ} {s s' : Spline V} (h : s.Good n) {idx : List ℕ} {x : V}
    (hr : s.setControlPoint idx x = .ok s') : s'.Good n ∧ s'.degrees = s.degrees := by
  unfold setControlPoint at hr
  obtain ⟨i, _, hr⟩ := bind_eq_ok.mp hr
  obtain ⟨c, hc, hr⟩ := bind_eq_ok.mp hr
  simp only [pure_eq_ok, Except.ok.injEq] at hr
  subst hr
  exact ⟨⟨setCps_wf h.1 (wr_len hc), h.2⟩, rfl⟩

theorem mapCps_good {n : ℕ} {s s' : Spline V} (h : s.Good n) {f : V → V} (hr : s.mapCps f = .ok s') :
    s'.Good n ∧ s'.degrees = s.degrees :=
  ⟨⟨(mapCps_wf h.1 hr).1, by rw [dim, (mapCps_wf h.1 hr).2]; exact h.2⟩, (mapCps_wf h.1 hr).2⟩

theorem negOp_good [Neg V] {n : ℕ} {s s' : Spline V} (h : s.Good n) (hr : s.negOp = .ok s') :
    s'.Good n ∧ s'.degrees = s.degrees := by
  unfold negOp at hr
  obtain ⟨c, hc, hr⟩ := bind_eq_ok.mp hr
  simp only [pure_eq_ok, Except.ok.injEq] at hr
  have hlen := loop_ok (P := fun _ (c : List V) => c.length = s.cps.length) hc rfl (by
    intro k _ c c' hs hf
    obtain ⟨x, _, hf⟩ := bind_eq_ok.mp hf
    exact (wr_len hf).trans hs)
  subst hr
  exact ⟨⟨setCps_wf h.1 hlen, h.2⟩, rfl⟩

theorem pointSub_good [Sub V] [Neg V] {n : ℕ} {s s' : Spline V} (h : s.Good n) {x : V} (hr : pointSub x s = .ok s') :
    s'.Good n ∧ s'.degrees = s.degrees := by
  unfold pointSub at hr
  obtain ⟨d, hd, hr⟩ := bind_eq_ok.mp hr
  have h1 := mapCps_good h hd
  have h2 := negOp_good h1.1 hr
  exact ⟨h2.1, h2.2.trans h1.2⟩

theorem orderElevate_good [One K] [Sub K] [Mul K] [Div K] [NatCast K] [Zero V] [Add V] [SMul K V]
    {n : ℕ} {s s' : Spline V} (h : s.Good n) {d : ℕ} (hr : orderElevate K s d = .ok s') : s'.Good n := by
  obtain ⟨w, p, _, hd⟩ := orderElevate_wf h.1 hr
  exact ⟨w, by rw [← h.2]; simp [dim, hd]⟩

theorem elevateTo_good [One K] [Sub K] [Mul K] [Div K] [NatCast K] [Zero V] [Add V] [SMul K V] {cfg : Cfg}
    {n : ℕ} {s s' : Spline V} (h : s.Good n) {target : List ℕ} (hr : elevateTo K cfg s target = .ok s') : s'.Good n :=
  ⟨(elevateTo_wf h.1 hr).1, (elevateTo_wf h.1 hr).2.trans h.2⟩

theorem zip_good {n m : ℕ} {s : Spline V} (h : s.Good n) {f : V → V → V} {b c : List V}
    (hr : zipCps m f s.cps b = .ok c) : Good n { s with cps := c } :=
  ⟨setCps_wf h.1 (zipCps_len hr), h.2⟩

section
variable [One K] [Sub K] [Mul K] [Div K] [NatCast K] [Zero V] [Add V] [SMul K V]

theorem addAssign_good {cfg : Cfg} {n : ℕ} {s rhs s' : Spline V} (h : s.Good n)
    (hr : addAssign K cfg s rhs = .ok s') : s'.Good n := by
  unfold addAssign at hr
  obtain ⟨a, ha, hr⟩ := bind_eq_ok.mp hr
  obtain ⟨b, hb, hr⟩ := bind_eq_ok.mp hr
  obtain ⟨c, hc, hr⟩ := bind_eq_ok.mp hr
  simp only [pure_eq_ok, Except.ok.injEq] at hr
  subst hr
  exact zip_good (elevateTo_good h ha) hc

theorem subAssign_good [Sub V] {cfg : Cfg} {n : ℕ} {s rhs s' : Spline V} (h : s.Good n)
    (hr : subAssign K cfg s rhs = .ok s') : s'.Good n := by
  unfold subAssign at hr
  obtain ⟨a, ha, hr⟩ := bind_eq_ok.mp hr
  obtain ⟨b, hb, hr⟩ := bind_eq_ok.mp hr
  obtain ⟨c, hc, hr⟩ := bind_eq_ok.mp hr
  simp only [pure_eq_ok, Except.ok.injEq] at hr
  subst hr
  exact zip_good (elevateTo_good h ha) hc

theorem addAux_good {cfg : Cfg} {n : ℕ} (hn : 0 < n) : ∀ (depth : ℕ) {s rhs s' : Spline V}, s.dim = n → rhs.dim = n →
    addAux K cfg depth s rhs = .ok s' → s'.Good n := by
  intro depth
  induction depth with
  | zero => intro s rhs s' _ _ hr; simp [addAux] at hr
  | succ depth ih =>
    intro s rhs s' h h' hr
    rw [addAux] at hr
    obtain ⟨ret, h1, hr⟩ := bind_eq_ok.mp hr
    obtain ⟨b, _, hr⟩ := bind_eq_ok.mp hr
    obtain ⟨ret', h2, hr⟩ := bind_eq_ok.mp hr
    have g1 := good_ofPoints (by rw [dim] at h; omega) h1
    rw [show s.degrees.length = n from h] at g1
    have g2 := elevateTo_good g1.1 h2
    split at hr
    · obtain ⟨c, hc, hr⟩ := bind_eq_ok.mp hr
      simp only [pure_eq_ok, Except.ok.injEq] at hr
      subst hr
      exact zip_good g2 hc
    · exact ih h' g2.2 hr

theorem addOp_good {cfg : Cfg} {n : ℕ} (hn : 0 < n) {s rhs s' : Spline V} (h : s.dim = n) (h' : rhs.dim = n)
    (hr : addOp K cfg s rhs = .ok s') : s'.Good n := addAux_good hn _ h h' hr

theorem subOp_good [Sub V] {cfg : Cfg} {n : ℕ} (hn : 0 < n) {s rhs s' : Spline V} (h : s.dim = n)
    (hr : subOp K cfg s rhs = .ok s') : s'.Good n := by
  unfold subOp at hr
  obtain ⟨ret, h1, hr⟩ := bind_eq_ok.mp hr
  obtain ⟨ret', h2, hr⟩ := bind_eq_ok.mp hr
  obtain ⟨r2, _, hr⟩ := bind_eq_ok.mp hr
  obtain ⟨c, hc, hr⟩ := bind_eq_ok.mp hr
  simp only [pure_eq_ok, Except.ok.injEq] at hr
  have g1 := good_ofPoints (by rw [dim] at h; omega) h1
  rw [show s.degrees.length = n from h] at g1
  subst hr
  refine zip_good ?_ hc
  refine loop_ok (P := fun _ (s' : Spline V) => s'.Good n) h2 g1.1 ?_
  intro k _ a b ha hf
  exact (whileM_ok (P := fun (s' : Spline V) => s'.Good n) (fun x y hx _ hxy => orderElevate_good hx hxy) _ _ _ ha hf).1

end

section
variable [One K] [Mul K] [Div K] [NatCast K] [Zero U] [Add U] [SMul K U]

theorem combineForProduct_good {cfg : Cfg} {mul : V → W → U} {P : Spline V} {Q : Spline W} {idx : List ℕ} {n : ℕ}
    {ds : List ℕ} : ∀ (rem : ℕ) {factor : K} {ind : List ℕ} {R R' : Spline U}, R.Good n ∧ R.degrees = ds →
      combineForProduct cfg mul P Q idx rem factor ind R = .ok R' → R'.Good n ∧ R'.degrees = ds := by
  intro rem
  induction rem with
  | zero =>
    intro factor ind R R' h hr
    rw [combineForProduct] at hr
    obtain ⟨k, _, hr⟩ := bind_eq_ok.mp hr
    obtain ⟨m, _, hr⟩ := bind_eq_ok.mp hr
    obtain ⟨q, _, hr⟩ := bind_eq_ok.mp hr
    refine loop_ok (P := fun _ (R : Spline U) => R.Good n ∧ R.degrees = ds) hr h ?_
    intro i _ a b ha hf
    obtain ⟨_, _, hf⟩ := bind_eq_ok.mp hf
    obtain ⟨_, _, hf⟩ := bind_eq_ok.mp hf
    obtain ⟨_, _, hf⟩ := bind_eq_ok.mp hf
    simp only [] at hf
    obtain ⟨_, _, hf⟩ := bind_eq_ok.mp hf
    obtain ⟨_, _, hf⟩ := bind_eq_ok.mp hf
    obtain ⟨_, _, hf⟩ := bind_eq_ok.mp hf
    obtain ⟨_, _, hf⟩ := bind_eq_ok.mp hf
    have := setControlPoint_good ha.1 hf
    exact ⟨this.1, this.2.trans ha.2⟩
  | succ rem ih =>
    intro factor ind R R' h hr
    rw [combineForProduct] at hr
    obtain ⟨k, _, hr⟩ := bind_eq_ok.mp hr
    obtain ⟨m, _, hr⟩ := bind_eq_ok.mp hr
    obtain ⟨q, _, hr⟩ := bind_eq_ok.mp hr
    refine loop_ok (P := fun _ (R : Spline U) => R.Good n ∧ R.degrees = ds) hr h ?_
    intro i _ a b ha hf
    obtain ⟨_, _, hf⟩ := bind_eq_ok.mp hf
    obtain ⟨_, _, hf⟩ := bind_eq_ok.mp hf
    obtain ⟨_, _, hf⟩ := bind_eq_ok.mp hf
    exact ih ha hf

theorem mulOp_good {cfg : Cfg} {mul : V → W → U} {n : ℕ} (hn : 0 < n) {s : Spline V} {rhs : Spline W} {s' : Spline U}
    (h : s.dim = n) (h' : rhs.dim = n) (hr : mulOp K cfg mul s rhs = .ok s') :
    s'.Good n ∧ s'.degrees = List.zipWith (· + ·) s.degrees rhs.degrees := by
  unfold mulOp at hr
  rw [productDegrees_ok (h'.trans h.symm)] at hr
  simp only [bind_ok] at hr
  obtain ⟨ret, h1, hr⟩ := bind_eq_ok.mp hr
  have hl : (List.zipWith (· + ·) s.degrees rhs.degrees).length = n := by
    unfold dim at *; simp [h, h']
  have g1 := good_ofDegrees (by omega) h1
  rw [hl] at g1
  refine loop_ok (P := fun _ (R : Spline U) => R.Good n ∧ R.degrees = _) hr g1 ?_
  intro i _ a b ha hf
  obtain ⟨idx, _, hf⟩ := bind_eq_ok.mp hf
  exact combineForProduct_good _ ha hf

end

section
variable [Zero K] [One K] [Add K] [Mul K] [Div K] [NatCast K]

theorem oneSpline_good {n : ℕ} (hn : 0 < n) {s : Spline K} (hr : oneSpline n = .ok s) : s.Good n := by
  have := (good_ofPoints (by simpa using hn) hr).1
  simpa using this

theorem raisePowerAux_good {cfg : Cfg} {n : ℕ} (hn : 0 < n) {s : Spline K} (h : s.Good n) :
    ∀ (depth : ℕ) {power : ℕ} {s' : Spline K}, raisePowerAux cfg s depth power = .ok s' → s'.Good n := by
  intro depth
  induction depth with
  | zero => intro p s' hr; simp [raisePowerAux] at hr
  | succ depth ih =>
    intro p s' hr
    rw [raisePowerAux] at hr
    split at hr
    · exact oneSpline_good hn (h.2 ▸ hr)
    · split at hr
      · simp only [pure_eq_ok, Except.ok.injEq] at hr; subst hr; exact h
      · obtain ⟨r, h1, hr⟩ := bind_eq_ok.mp hr
        have g1 := ih h1
        split at hr
        · exact (mulOp_good hn g1.2 g1.2 hr).1
        · obtain ⟨rr, h2, hr⟩ := bind_eq_ok.mp hr
          have g2 := (mulOp_good hn g1.2 g1.2 h2).1
          exact (mulOp_good hn g2.2 h.2 hr).1

theorem raisePower_good {cfg : Cfg} {n : ℕ} (hn : 0 < n) {s s' : Spline K} (h : s.Good n) {power : ℕ}
    (hr : s.raisePower cfg power = .ok s') : s'.Good n := raisePowerAux_good hn h _ hr

end

theorem extractDimension_good [Zero K] [Coords K V] {n : ℕ} (hn : 0 < n) {s : Spline V} (h : s.dim = n) {d : ℕ}
    {s' : Spline K} (hr : extractDimension K s d = .ok s') : s'.Good n ∧ s'.degrees = s.degrees := by
  unfold extractDimension at hr
  split at hr
  · obtain ⟨e, h1, hr⟩ := bind_eq_ok.mp hr
    obtain ⟨c, hc, hr⟩ := bind_eq_ok.mp hr
    simp only [pure_eq_ok, Except.ok.injEq] at hr
    have g1 := good_ofDegrees (by rw [dim] at h; omega) h1
    rw [show s.degrees.length = n from h] at g1
    have hlen := loop_ok (P := fun _ (c : List K) => c.length = e.cps.length) hc rfl (by
      intro k _ c c' hs hf
      obtain ⟨x, _, hf⟩ := bind_eq_ok.mp hf
      exact (wr_len hf).trans hs)
    subst hr
    exact ⟨⟨setCps_wf g1.1.1 hlen, g1.1.2⟩, g1.2⟩
  · cases hr

section
variable [LT K] [DecidableLT K] [Zero K] [One K] [Sub K] [Add V] [SMul K V]

theorem splitAt_good {n : ℕ} {s : Spline V} (h : s.Good n) {z : K} {sd : ℕ} {r : Spline V × Spline V}
    (hr : s.splitAt z sd = .ok r) :
    (r.1.Good n ∧ r.1.degrees = s.degrees) ∧ (r.2.Good n ∧ r.2.degrees = s.degrees) := by
  unfold splitAt at hr
  split at hr
  · cases hr
  · obtain ⟨p, _, hr⟩ := bind_eq_ok.mp hr
    simp only [] at hr
    obtain ⟨off, _, hr⟩ := bind_eq_ok.mp hr
    obtain ⟨q, hq, hr⟩ := bind_eq_ok.mp hr
    simp only [pure_eq_ok, Except.ok.injEq] at hr
    have hlen : q.1.length = s.cps.length ∧ q.2.length = s.cps.length := by
      refine loop_ok (P := fun _ (q : List V × List V) => q.1.length = s.cps.length ∧ q.2.length = s.cps.length) hq
        ⟨rfl, rfl⟩ ?_
      intro k _ a b ha hf
      obtain ⟨_, _, hf⟩ := bind_eq_ok.mp hf
      obtain ⟨_, _, hf⟩ := bind_eq_ok.mp hf
      refine loop_ok (P := fun _ (q : List V × List V) => q.1.length = s.cps.length ∧ q.2.length = s.cps.length) hf ha ?_
      intro j _ a b ha hf
      obtain ⟨f, h1, hf⟩ := bind_eq_ok.mp hf
      obtain ⟨_, _, hf⟩ := bind_eq_ok.mp hf
      obtain ⟨g, h2, hf⟩ := bind_eq_ok.mp hf
      simp only [pure_eq_ok, Except.ok.injEq] at hf
      subst hf
      refine ⟨?_, (wr_len h2).trans ha.2⟩
      refine loopDown_ok (P := fun (q : List V) => q.length = s.cps.length) h1 ha.1 ?_
      intro k _ x y hx hf
      obtain ⟨_, _, hf⟩ := bind_eq_ok.mp hf
      obtain ⟨_, _, hf⟩ := bind_eq_ok.mp hf
      exact (wr_len hf).trans hx
    subst hr
    exact ⟨⟨⟨setCps_wf h.1 hlen.1, h.2⟩, rfl⟩, ⟨setCps_wf h.1 hlen.2, h.2⟩, rfl⟩

theorem splitAtMany_good [Div K] {n : ℕ} {s : Spline V} (h : s.Good n) {zs : List K} {sd : ℕ} {l : List (Spline V)}
    (hr : s.splitAtMany zs sd = .ok l) : ∀ p ∈ l, p.Good n ∧ p.degrees = s.degrees := by
  unfold splitAtMany at hr
  split at hr
  · cases hr
  · split at hr
    · simp only [pure_eq_ok, Except.ok.injEq] at hr
      subst hr
      intro p hp; simp only [List.mem_singleton] at hp; subst hp; exact ⟨h, rfl⟩
    · obtain ⟨z0, _, hr⟩ := bind_eq_ok.mp hr
      obtain ⟨sp, h1, hr⟩ := bind_eq_ok.mp hr
      obtain ⟨r, h2, hr⟩ := bind_eq_ok.mp hr
      simp only [pure_eq_ok, Except.ok.injEq] at hr
      have g1 := splitAt_good h h1
      have : (∀ p ∈ r.1, p.Good n ∧ p.degrees = s.degrees) ∧ (r.2.2.Good n ∧ r.2.2.degrees = s.degrees) := by
        refine loop_ok (P := fun _ (r : List (Spline V) × (Spline V × Spline V)) =>
          (∀ p ∈ r.1, p.Good n ∧ p.degrees = s.degrees) ∧ (r.2.2.Good n ∧ r.2.2.degrees = s.degrees)) h2
          ⟨fun p hp => by simp only [List.mem_singleton] at hp; subst hp; exact g1.1, g1.2⟩ ?_
        intro k _ a b ha hf
        obtain ⟨_, _, hf⟩ := bind_eq_ok.mp hf
        obtain ⟨_, _, hf⟩ := bind_eq_ok.mp hf
        simp only [] at hf
        obtain ⟨sp', h3, hf⟩ := bind_eq_ok.mp hf
        simp only [pure_eq_ok, Except.ok.injEq] at hf
        have g3 := splitAt_good ha.2.1 h3
        subst hf
        refine ⟨fun p hp => ?_, g3.2.1, g3.2.2.trans ha.2.2⟩
        rcases List.mem_append.mp hp with hp | hp
        · exact ha.1 p hp
        · simp only [List.mem_singleton] at hp; subst hp; exact ⟨g3.1.1, g3.1.2.trans ha.2.2⟩
      subst hr
      intro p hp
      rcases List.mem_append.mp hp with hp | hp
      · exact this.1 p hp
      · simp only [List.mem_singleton] at hp; subst hp; exact this.2

end

section
variable [Zero K] [One K] [Add K] [Sub K] [Mul K] [Neg K] [Div K] [NatCast K]

theorem wr_mem {α : Type} {Q : α → Prop} {l l' : List α} {i k : ℕ} {x : α} (hr : wr l i x = .ok l') (hx : Q x)
    (h : ∀ j, j < k → ∀ b, l[j]? = some b → Q b) (hk : i ≤ k) :
    ∀ j, j < max k (i + 1) → ∀ b, l'[j]? = some b → Q b := by
  obtain ⟨hi, rfl⟩ := wr_eq hr
  intro j hj b hb
  by_cases e : i = j
  · subst e
    rw [List.getElem?_set_self hi] at hb
    injection hb with hb; subst hb; exact hx
  · rw [List.getElem?_set_ne e] at hb
    exact h j (by omega) b hb

theorem composeBernstein_good {cfg : Cfg} {n p : ℕ} (hn : 0 < n) {e i : Spline K} (he : e.dim = n) (hi : i.dim = n)
    {l : List (Spline K)} (hr : composeBernstein cfg p n e i = .ok l) : ∀ b ∈ l, b.Good n := by
  unfold composeBernstein at hr
  simp only [] at hr
  obtain ⟨one, h1, hr⟩ := bind_eq_ok.mp hr
  obtain ⟨bs, h2, hr⟩ := bind_eq_ok.mp hr
  obtain ⟨r, h3, hr⟩ := bind_eq_ok.mp hr
  obtain ⟨r', h4, hr⟩ := bind_eq_ok.mp hr
  have g1 := oneSpline_good hn h1
  have hbs : bs.length = p + 1 := by rw [wr_len h2]; simp
  have a1 : r.1.length = p + 1 ∧ ∀ j, j < p + 1 → ∀ b, r.1[j]? = some b → b.Good n := by
    have := loopFrom_ok (P := fun k (r : List (Spline K) × Spline K) => r.2.Good n ∧ r.1.length = p + 1 ∧
      ∀ j, j < k → ∀ b, r.1[j]? = some b → b.Good n) (by omega) h3
      ⟨g1, hbs, fun j hj => wr_mem (Q := Good n) h2 g1 (k := 0) (by intro j hj; omega) (by omega) j (by omega)⟩ (by
        intro k _ _ a b ha hf
        obtain ⟨m, hm, hf⟩ := bind_eq_ok.mp hf
        obtain ⟨c, hc, hf⟩ := bind_eq_ok.mp hf
        simp only [pure_eq_ok, Except.ok.injEq] at hf
        subst hf
        have gm := (mulOp_good hn ha.1.2 he hm).1
        exact ⟨gm, (wr_len hc).trans ha.2.1, fun j hj => wr_mem (Q := Good n) hc gm ha.2.2 (le_refl _) j (by omega)⟩)
    exact this.2
  have a2 : r'.1.length = p + 1 ∧ ∀ j, j < p + 1 → ∀ b, r'.1[j]? = some b → b.Good n := by
    have := loopFrom_ok (P := fun k (r : List (Spline K) × Spline K) => r.2.Good n ∧ r.1.length = p + 1 ∧
      ∀ j, j < p + 1 → ∀ b, r.1[j]? = some b → b.Good n) (by omega) h4
      ⟨g1, a1⟩ (by
        intro k _ _ a b ha hf
        obtain ⟨m, hm, hf⟩ := bind_eq_ok.mp hf
        obtain ⟨x, hx, hf⟩ := bind_eq_ok.mp hf
        obtain ⟨y, hy, hf⟩ := bind_eq_ok.mp hf
        obtain ⟨c, hc, hf⟩ := bind_eq_ok.mp hf
        simp only [pure_eq_ok, Except.ok.injEq] at hf
        subst hf
        have gm := (mulOp_good hn ha.1.2 hi hm).1
        have gx := ha.2.2 _ (by omega) _ (rd_ok_iff.mp hx)
        have gy := (mulOp_good hn gx.2 gm.2 hy).1
        exact ⟨gm, (wr_len hc).trans ha.2.1, fun j hj => wr_mem (Q := Good n) hc gy ha.2.2 (by omega) j (by omega)⟩)
    exact this.2
  have a3 : l.length = p + 1 ∧ ∀ j, j < p + 1 → ∀ b, l[j]? = some b → b.Good n := by
    by_cases hp : 1 ≤ p
    · refine loopFrom_ok (P := fun k (r : List (Spline K)) => r.length = p + 1 ∧
        ∀ j, j < p + 1 → ∀ b, r[j]? = some b → b.Good n) hp hr a2 (by
          intro k _ _ a b ha hf
          obtain ⟨x, hx, hf⟩ := bind_eq_ok.mp hf
          obtain ⟨c, _, hf⟩ := bind_eq_ok.mp hf
          obtain ⟨y, hy, hf⟩ := bind_eq_ok.mp hf
          have gx := ha.2 _ (by omega) _ (rd_ok_iff.mp hx)
          have gy := (mapCps_good gx hy).1
          exact ⟨(wr_len hf).trans ha.1, fun j hj => wr_mem (Q := Good n) hf gy ha.2 (by omega) j (by omega)⟩)
    · rw [loopFrom_empty (by omega)] at hr
      injection hr with hr; subst hr; exact a2
  intro b hb
  obtain ⟨j, hj⟩ := List.mem_iff_getElem?.mp hb
  have : j < l.length := by
    by_contra h
    rw [List.getElem?_eq_none (by omega)] at hj; cases hj
  exact a3.2 j (by omega) b hj

theorem composeBases_good {cfg : Cfg} {n : ℕ} (hn : 0 < n) {ds : List ℕ} {extract : ℕ → M (Spline K)}
    {inverse : Spline K → M (Spline K)} (he : ∀ d e, extract d = .ok e → e.dim = n)
    (hi : ∀ d e i, extract d = .ok e → inverse e = .ok i → i.dim = n) {l : List (List (Spline K))}
    (hr : composeBases cfg ds n extract inverse = .ok l) : ∀ bs ∈ l, ∀ b ∈ bs, b.Good n := by
  unfold composeBases at hr
  have := loop_ok (P := fun k (l : List (List (Spline K))) => l.length = ds.length ∧
    ∀ j, j < k → ∀ bs, l[j]? = some bs → ∀ b ∈ bs, b.Good n) hr ⟨by simp, by intro j hj; omega⟩ (by
      intro k _ a b ha hf
      obtain ⟨p, _, hf⟩ := bind_eq_ok.mp hf
      obtain ⟨e, h1, hf⟩ := bind_eq_ok.mp hf
      obtain ⟨i, h2, hf⟩ := bind_eq_ok.mp hf
      obtain ⟨bs, h3, hf⟩ := bind_eq_ok.mp hf
      exact ⟨(wr_len hf).trans ha.1, fun j hj => wr_mem (Q := fun bs : List (Spline K) => ∀ b ∈ bs, b.Good n) hf
        (composeBernstein_good hn (he _ _ h1) (hi _ _ _ h1 h2) h3) ha.2 (le_refl _) j (by omega)⟩)
  intro bs hbs
  obtain ⟨j, hj⟩ := List.mem_iff_getElem?.mp hbs
  have hl : j < l.length := by
    by_contra h
    rw [List.getElem?_eq_none (by omega)] at hj; cases hj
  exact this.2 j (by omega) bs hj

theorem composeTensor_good {cfg : Cfg} {n : ℕ} (hn : 0 < n) {bases : List (List (Spline K))}
    (hb : ∀ bs ∈ bases, ∀ b ∈ bs, b.Good n) {idx : List ℕ} {t : Spline K}
    (hr : composeTensor cfg bases idx = .ok t) : t.Good n := by
  have mem : ∀ {α : Type} {l : List α} {i : ℕ} {x : α}, rd l i = .ok x → x ∈ l := fun h =>
    List.mem_of_getElem? (rd_ok_iff.mp h)
  unfold composeTensor at hr
  obtain ⟨b0, h1, hr⟩ := bind_eq_ok.mp hr
  obtain ⟨i0, _, hr⟩ := bind_eq_ok.mp hr
  obtain ⟨t0, h2, hr⟩ := bind_eq_ok.mp hr
  refine loop_ok (P := fun _ (t : Spline K) => t.Good n) hr (hb _ (mem h1) _ (mem h2)) ?_
  intro k _ a b ha hf
  obtain ⟨c, h3, hf⟩ := bind_eq_ok.mp hf
  obtain ⟨_, _, hf⟩ := bind_eq_ok.mp hf
  obtain ⟨x, h4, hf⟩ := bind_eq_ok.mp hf
  exact (mulOp_good hn ha.2 (hb _ (mem h3) _ (mem h4)).2 hf).1

theorem composeNumerator_good [Zero V] [Add V] [SMul K V] {cfg : Cfg} {s : Spline V} {ids : List ℕ}
    (hn : 0 < ids.length) {extract : ℕ → M (Spline K)}
    {inverse : Spline K → M (Spline K)} {s' : Spline V}
    (hr : composeNumerator cfg s ids extract inverse = .ok s') :
    s'.Good ids.length ∧ s'.degrees = ids.map (fun q => q * s.degrees.sum) := by
  unfold composeNumerator at hr
  simp only [] at hr
  obtain ⟨ret, h1, hr⟩ := bind_eq_ok.mp hr
  obtain ⟨bases, _, hr⟩ := bind_eq_ok.mp hr
  have g1 := good_ofDegrees (by simpa [composeDegrees] using hn) h1
  rw [show (composeDegrees s.degrees ids).length = ids.length by simp [composeDegrees]] at g1
  refine loop_ok (P := fun _ (t : Spline V) => t.Good ids.length ∧ t.degrees = _) hr g1 ?_
  intro k _ a b ha hf
  obtain ⟨_, _, hf⟩ := bind_eq_ok.mp hf
  obtain ⟨t, _, hf⟩ := bind_eq_ok.mp hf
  obtain ⟨_, _, hf⟩ := bind_eq_ok.mp hf
  obtain ⟨c, hc, hf⟩ := bind_eq_ok.mp hf
  simp only [pure_eq_ok, Except.ok.injEq] at hf
  have hlen := loop_ok (P := fun _ (c : List V) => c.length = a.cps.length) hc rfl (by
    intro k _ c c' hs hf
    obtain ⟨_, _, hf⟩ := bind_eq_ok.mp hf
    obtain ⟨_, _, hf⟩ := bind_eq_ok.mp hf
    obtain ⟨_, _, hf⟩ := bind_eq_ok.mp hf
    exact (wr_len hf).trans hs)
  subst hf
  exact ⟨⟨setCps_wf ha.1.1 hlen, ha.1.2⟩, ha.2⟩

theorem composeNumeratorSensitivity_good {cfg : Cfg} {s : Spline V} {ids : List ℕ}
    (hn : 0 < ids.length) {extract : ℕ → M (Spline K)} {inverse : Spline K → M (Spline K)}
    (he : ∀ d e, extract d = .ok e → e.dim = ids.length)
    (hi : ∀ d e i, extract d = .ok e → inverse e = .ok i → i.dim = ids.length) {l : List (Spline K)}
    (hr : composeNumeratorSensitivity cfg s ids extract inverse = .ok l) : ∀ b ∈ l, b.Good ids.length := by
  unfold composeNumeratorSensitivity at hr
  obtain ⟨bases, h1, hr⟩ := bind_eq_ok.mp hr
  have g1 := composeBases_good hn he hi h1
  refine loop_ok (P := fun _ (l : List (Spline K)) => ∀ b ∈ l, b.Good ids.length) hr (by simp) ?_
  intro k _ a b ha hf
  obtain ⟨_, _, hf⟩ := bind_eq_ok.mp hf
  obtain ⟨t, h2, hf⟩ := bind_eq_ok.mp hf
  simp only [pure_eq_ok, Except.ok.injEq] at hf
  subst hf
  intro x hx
  rcases List.mem_append.mp hx with hx | hx
  · exact ha x hx
  · simp only [List.mem_singleton] at hx; subst hx; exact composeTensor_good hn g1 h2

end

section
variable [Zero K] [One K] [Add K] [Sub K] [Mul K] [Neg K] [Div K] [NatCast K] [Coords K W] [LT K] [DecidableLT K]

theorem compose_good [Zero V] [Add V] [SMul K V] {cfg : Cfg} {n : ℕ} (hn : 0 < n) {s : Spline V} {inner : Spline W}
    (h : inner.dim = n) {s' : Spline V} (hr : compose K cfg s inner = .ok s') : s'.Good n := by
  unfold compose at hr
  obtain ⟨fits, _, hr⟩ := bind_eq_ok.mp hr
  split at hr
  · cases hr
  · rw [← h]
    exact (composeNumerator_good (show 0 < inner.degrees.length by rw [dim] at h; omega) hr).1

theorem composeSensitivity_good {cfg : Cfg} {n : ℕ} (hn : 0 < n) {s : Spline V} {inner : Spline W}
    (h : inner.dim = n) {l : List (Spline K)} (hr : composeSensitivity K cfg s inner = .ok l) :
    ∀ b ∈ l, b.Good n := by
  unfold composeSensitivity at hr
  obtain ⟨fits, _, hr⟩ := bind_eq_ok.mp hr
  split at hr
  · cases hr
  · have e : inner.degrees.length = n := h
    have := composeNumeratorSensitivity_good (by rw [e]; exact hn)
      (fun d x hx => by rw [e]; exact (extractDimension_good hn h hx).1.2)
      (fun d x i hx hi => by
        rw [e]; exact (pointSub_good (extractDimension_good hn h hx).1 hi).1.2) hr
    rwa [e] at this

end

theorem derivativeSpline_dim [One K] [Neg K] [Mul K] [NatCast K] [Zero V] [Add V] [SMul K V] {cfg : Cfg}
    {s s' : Spline V} {orders : List ℕ} (hr : derivativeSpline K cfg s orders = .ok s') : s'.dim = s.dim := by
  unfold derivativeSpline at hr
  obtain ⟨r, h1, hr⟩ := bind_eq_ok.mp hr
  obtain ⟨e, h2, hr⟩ := bind_eq_ok.mp hr
  obtain ⟨c, _, hr⟩ := bind_eq_ok.mp hr
  simp only [pure_eq_ok, Except.ok.injEq] at hr
  have a1 : r.1.length = s.dim := by
    refine loop_ok (P := fun _ (r : List ℕ × List V) => r.1.length = s.dim) h1 rfl ?_
    intro k _ a b ha hf
    obtain ⟨o, _, hf⟩ := bind_eq_ok.mp hf
    split at hf
    · simp only [pure_eq_ok, Except.ok.injEq] at hf; subst hf; exact ha
    · obtain ⟨_, _, hf⟩ := bind_eq_ok.mp hf
      obtain ⟨nd, h3, hf⟩ := bind_eq_ok.mp hf
      obtain ⟨_, _, hf⟩ := bind_eq_ok.mp hf
      obtain ⟨_, _, hf⟩ := bind_eq_ok.mp hf
      obtain ⟨_, _, hf⟩ := bind_eq_ok.mp hf
      simp only [pure_eq_ok, Except.ok.injEq] at hf
      subst hf
      exact (wr_len h3).trans ha
  have a2 : e.degrees = r.1 := by
    unfold ofDegrees64 at h2
    simp only [] at h2
    obtain ⟨_, _, h2⟩ := bind_eq_ok.mp h2
    obtain ⟨_, _, h2⟩ := bind_eq_ok.mp h2
    simp only [pure_eq_ok, Except.ok.injEq] at h2
    subst h2; rfl
  subst hr
  rw [dim, a2, a1]

end Spline

namespace RSpline
variable {K V W U : Type}

/-- both parts consistent, of parametric dimension `n` and of equal degrees -/
def Good (n : ℕ) (r : RSpline K V) : Prop := r.num.Good n ∧ r.wt.Good n ∧ r.num.degrees = r.wt.degrees

theorem ofSplines_good {n : ℕ} {a : Spline V} {b : Spline K} (ha : a.Good n) (hb : b.Good n) {r : RSpline K V}
    (hr : ofSplines a b = .ok r) : r.Good n := by
  unfold ofSplines assertM at hr
  split at hr
  · next h =>
    simp only [bind_ok, pure_eq_ok, Except.ok.injEq] at hr
    subst hr
    exact ⟨ha, hb, by simpa [compatible] using h⟩
  · simp at hr

theorem assert_good {n : ℕ} {a : Spline V} {b : Spline K} (ha : a.Good n) (hb : b.Good n) {r : RSpline K V}
    (hr : (do assertM (compatible ⟨a, b⟩); pure ⟨a, b⟩ : M (RSpline K V)) = .ok r) : r.Good n := ofSplines_good ha hb hr

theorem ofSpline_good [One K] {n : ℕ} {s : Spline V} (h : s.Good n) {r : RSpline K V} (hr : ofSpline s = .ok r) :
    r.Good n := by
  unfold ofSpline at hr
  obtain ⟨w, h1, hr⟩ := bind_eq_ok.mp hr
  have g := (Spline.good_ofPoints h.1.dim_pos h1).1
  rw [show s.degrees.length = n from h.2] at g
  exact assert_good h g hr

theorem ofDegrees_good [Zero K] [Zero V] {ds : List ℕ} (h : 0 < ds.length) {r : RSpline K V}
    (hr : ofDegrees ds = .ok r) : r.Good ds.length := by
  unfold ofDegrees at hr
  obtain ⟨a, h1, hr⟩ := bind_eq_ok.mp hr
  obtain ⟨b, h2, hr⟩ := bind_eq_ok.mp hr
  simp only [pure_eq_ok, Except.ok.injEq] at hr
  subst hr
  have g1 := Spline.good_ofDegrees h h1
  have g2 := Spline.good_ofDegrees h h2
  exact ⟨g1.1, g2.1, g1.2.trans g2.2.symm⟩

theorem ofPoints_good [Zero V] [SMul K V] {ds : List ℕ} (h : 0 < ds.length) {pts : List V} {ws : List K}
    {r : RSpline K V} (hr : ofPoints ds pts ws = .ok r) : r.Good ds.length := by
  unfold ofPoints at hr
  obtain ⟨a, h1, hr⟩ := bind_eq_ok.mp hr
  obtain ⟨b, h2, hr⟩ := bind_eq_ok.mp hr
  obtain ⟨_, _, hr⟩ := bind_eq_ok.mp hr
  obtain ⟨_, _, hr⟩ := bind_eq_ok.mp hr
  obtain ⟨c, hc, hr⟩ := bind_eq_ok.mp hr
  have g1 := Spline.good_ofDegrees h h1
  have g2 := Spline.good_ofPoints h h2
  have hlen := loop_ok (P := fun _ (c : List V) => c.length = a.cps.length) hc rfl (by
    intro k _ c c' hs hf
    obtain ⟨_, _, hf⟩ := bind_eq_ok.mp hf
    obtain ⟨_, _, hf⟩ := bind_eq_ok.mp hf
    exact (wr_len hf).trans hs)
  exact assert_good ⟨Spline.setCps_wf g1.1.1 hlen, g1.1.2⟩ g2.1 hr

theorem updateDegrees_good [Zero K] [Zero V] {n : ℕ} (hn : 0 < n) {r r' : RSpline K V} {ds : List ℕ} (hl : ds.length = n)
    (h1 : r.num.offsets.length = n) (h2 : r.wt.offsets.length = n) (hr : r.updateDegrees ds = .ok r') : r'.Good n := by
  unfold updateDegrees at hr
  obtain ⟨a, ha, hr⟩ := bind_eq_ok.mp hr
  obtain ⟨b, hb, hr⟩ := bind_eq_ok.mp hr
  have ga := Spline.updateDegrees_wf hn h2 hl ha
  have gb := Spline.updateDegrees_wf hn h1 hl hb
  exact assert_good ⟨gb.1, by rw [Spline.dim, gb.2, hl]⟩ ⟨ga.1, by rw [Spline.dim, ga.2, hl]⟩ hr

theorem orderElevate_good [Zero K] [One K] [Add K] [Sub K] [Mul K] [Div K] [NatCast K] [Zero V] [Add V] [SMul K V]
    {n d : ℕ} {r r' : RSpline K V} (h : r.Good n) (hr : r.orderElevate d = .ok r') : r'.Good n := by
  unfold orderElevate at hr
  obtain ⟨a, ha, hr⟩ := bind_eq_ok.mp hr
  obtain ⟨b, hb, hr⟩ := bind_eq_ok.mp hr
  exact assert_good (Spline.orderElevate_good h.1 ha) (Spline.orderElevate_good h.2.1 hb) hr

theorem splitAt_good [Zero K] [One K] [Add K] [Sub K] [Mul K] [Add V] [SMul K V] [LT K] [DecidableLT K]
    {n sd : ℕ} {z : K} {r : RSpline K V} {q : RSpline K V × RSpline K V} (h : r.Good n)
    (hr : r.splitAt z sd = .ok q) : q.1.Good n ∧ q.2.Good n := by
  unfold splitAt at hr
  obtain ⟨a, ha, hr⟩ := bind_eq_ok.mp hr
  obtain ⟨b, hb, hr⟩ := bind_eq_ok.mp hr
  obtain ⟨c, hc, hr⟩ := bind_eq_ok.mp hr
  obtain ⟨d, hd, hr⟩ := bind_eq_ok.mp hr
  simp only [pure_eq_ok, Except.ok.injEq] at hr
  subst hr
  have ga := Spline.splitAt_good h.1 ha
  have gb := Spline.splitAt_good h.2.1 hb
  exact ⟨ofSplines_good ga.1.1 gb.1.1 hc, ofSplines_good ga.2.1 gb.2.1 hd⟩

theorem splitAtMany_good [Zero K] [One K] [Add K] [Sub K] [Mul K] [Div K] [Add V] [SMul K V] [LT K] [DecidableLT K]
    {n sd : ℕ} {zs : List K} {r : RSpline K V} {l : List (RSpline K V)} (h : r.Good n)
    (hr : r.splitAtMany zs sd = .ok l) : ∀ p ∈ l, p.Good n := by
  unfold splitAtMany at hr
  split at hr
  · cases hr
  · split at hr
    · simp only [pure_eq_ok, Except.ok.injEq] at hr
      subst hr
      intro p hp; simp only [List.mem_singleton] at hp; subst hp; exact h
    · obtain ⟨z0, _, hr⟩ := bind_eq_ok.mp hr
      obtain ⟨sp, h1, hr⟩ := bind_eq_ok.mp hr
      obtain ⟨q, h2, hr⟩ := bind_eq_ok.mp hr
      simp only [pure_eq_ok, Except.ok.injEq] at hr
      have g1 := splitAt_good h h1
      have : (∀ p ∈ q.1, p.Good n) ∧ q.2.2.Good n := by
        refine loop_ok (P := fun _ (r : List (RSpline K V) × (RSpline K V × RSpline K V)) =>
          (∀ p ∈ r.1, p.Good n) ∧ r.2.2.Good n) h2
          ⟨fun p hp => by simp only [List.mem_singleton] at hp; subst hp; exact g1.1, g1.2⟩ ?_
        intro k _ a b ha hf
        obtain ⟨_, _, hf⟩ := bind_eq_ok.mp hf
        obtain ⟨_, _, hf⟩ := bind_eq_ok.mp hf
        simp only [] at hf
        obtain ⟨sp', h3, hf⟩ := bind_eq_ok.mp hf
        simp only [pure_eq_ok, Except.ok.injEq] at hf
        have g3 := splitAt_good ha.2 h3
        subst hf
        refine ⟨fun p hp => ?_, g3.2⟩
        rcases List.mem_append.mp hp with hp | hp
        · exact ha.1 p hp
        · simp only [List.mem_singleton] at hp; subst hp; exact g3.1
      subst hr
      intro p hp
      rcases List.mem_append.mp hp with hp | hp
      · exact this.1 p hp
      · simp only [List.mem_singleton] at hp; subst hp; exact this.2

theorem smulAssign_good [SMul K V] {n : ℕ} {r r' : RSpline K V} {c : K} (h : r.Good n) (hr : r.smulAssign c = .ok r') :
    r'.Good n := by
  unfold smulAssign at hr
  obtain ⟨a, ha, hr⟩ := bind_eq_ok.mp hr
  exact assert_good (Spline.mapCps_good h.1 ha).1 h.2.1 hr

theorem smulOp_good [SMul K V] {n : ℕ} {r r' : RSpline K V} {c : K} (h : r.Good n) (hr : r.smulOp c = .ok r') :
    r'.Good n := by
  unfold smulOp at hr
  obtain ⟨a, ha, hr⟩ := bind_eq_ok.mp hr
  exact ofSplines_good (Spline.mapCps_good h.1 ha).1 h.2.1 hr

theorem negOp_good [Neg V] {n : ℕ} {r r' : RSpline K V} (h : r.Good n) (hr : r.negOp = .ok r') : r'.Good n := by
  unfold negOp at hr
  obtain ⟨a, ha, hr⟩ := bind_eq_ok.mp hr
  exact ofSplines_good (Spline.negOp_good h.1 ha).1 h.2.1 hr

/-- the loop of the two point operators -/
theorem pointLoop_good {n m : ℕ} {r : RSpline K V} (h : r.Good n) {f : V → K → V} {c : List V}
    (hc : loop m (fun i cps => do
      let x ← rd cps i
      let w ← rd r.wt.cps i
      wr cps i (f x w)) r.num.cps = .ok c) : Good n ⟨{ r.num with cps := c }, r.wt⟩ := by
  have hlen := loop_ok (P := fun _ (c : List V) => c.length = r.num.cps.length) hc rfl (by
    intro k _ c c' hs hf
    obtain ⟨_, _, hf⟩ := bind_eq_ok.mp hf
    obtain ⟨_, _, hf⟩ := bind_eq_ok.mp hf
    exact (wr_len hf).trans hs)
  exact ⟨⟨Spline.setCps_wf h.1.1 hlen, h.1.2⟩, h.2⟩

theorem addPointAssign_good [Add V] [SMul K V] {n : ℕ} {r r' : RSpline K V} {x : V} (h : r.Good n)
    (hr : r.addPointAssign x = .ok r') : r'.Good n := by
  unfold addPointAssign at hr
  obtain ⟨c, hc, hr⟩ := bind_eq_ok.mp hr
  simp only [] at hr
  obtain ⟨_, _, hr⟩ := bind_eq_ok.mp hr
  simp only [pure_eq_ok, Except.ok.injEq] at hr
  subst hr
  exact pointLoop_good h (f := fun y w => y + w • x) hc

theorem subPointAssign_good [Sub V] [SMul K V] {n : ℕ} {r r' : RSpline K V} {x : V} (h : r.Good n)
    (hr : r.subPointAssign x = .ok r') : r'.Good n := by
  unfold subPointAssign at hr
  obtain ⟨c, hc, hr⟩ := bind_eq_ok.mp hr
  simp only [pure_eq_ok, Except.ok.injEq] at hr
  subst hr
  exact pointLoop_good h (f := fun y w => y - w • x) hc

theorem addPoint_good [Add V] [SMul K V] {n : ℕ} {r r' : RSpline K V} {x : V} (h : r.Good n)
    (hr : r.addPoint x = .ok r') : r'.Good n := by
  unfold addPoint at hr
  obtain ⟨c, hc, hr⟩ := bind_eq_ok.mp hr
  exact addPointAssign_good (ofSplines_good h.1 h.2.1 hc) hr

theorem subPoint_good [Sub V] [SMul K V] {n : ℕ} {r r' : RSpline K V} {x : V} (h : r.Good n)
    (hr : r.subPoint x = .ok r') : r'.Good n := by
  unfold subPoint at hr
  obtain ⟨c, hc, hr⟩ := bind_eq_ok.mp hr
  exact subPointAssign_good (ofSplines_good h.1 h.2.1 hc) hr

theorem eqOp_degrees [BEq V] {a b : Spline V} (h : a.eqOp b = true) : b.degrees = a.degrees := by
  unfold Spline.eqOp at h
  split at h
  · assumption
  · cases h

section
variable [Zero K] [One K] [Add K] [Sub K] [Mul K] [Div K] [NatCast K] [Zero V] [Add V] [SMul K V]

/-- nothing is elevated if the target degrees are reached -/
theorem elevateTo_self {cfg : Cfg} {a b : Spline V} (hr : Spline.elevateTo K cfg a a.degrees = .ok b) : b = a := by
  unfold Spline.elevateTo at hr
  refine loop_ok (P := fun _ (s' : Spline V) => s' = a) hr rfl ?_
  intro k _ x y hx hf
  subst hx
  revert hf
  cases cfg.fuel with
  | zero => intro hf; simp [whileM] at hf
  | succ f =>
    intro hf
    rw [whileM] at hf
    cases ht : rd x.degrees k with
    | error e => simp [ht] at hf
    | ok t => simpa [ht] using hf.symm

variable [BEq K]

theorem addOp_good {cfg : Cfg} {n : ℕ} (hn : 0 < n) {r rhs r' : RSpline K V} (h : r.Good n) (h' : rhs.Good n)
    (hr : r.addOp cfg rhs = .ok r') : r'.Good n := by
  unfold addOp at hr
  split at hr
  · obtain ⟨a, ha, hr⟩ := bind_eq_ok.mp hr
    exact ofSplines_good (Spline.addOp_good hn h.1.2 h'.1.2 ha) h.2.1 hr
  · obtain ⟨a, ha, hr⟩ := bind_eq_ok.mp hr
    obtain ⟨b, hb, hr⟩ := bind_eq_ok.mp hr
    obtain ⟨c, hc, hr⟩ := bind_eq_ok.mp hr
    obtain ⟨d, hd, hr⟩ := bind_eq_ok.mp hr
    have ga := (Spline.mulOp_good hn h.1.2 h'.2.1.2 ha).1
    have gb := (Spline.mulOp_good hn h.2.1.2 h'.1.2 hb).1
    exact ofSplines_good (Spline.addOp_good hn ga.2 gb.2 hc) (Spline.mulOp_good hn h.2.1.2 h'.2.1.2 hd).1 hr

theorem subOp_good [Sub V] {cfg : Cfg} {n : ℕ} (hn : 0 < n) {r rhs r' : RSpline K V} (h : r.Good n) (h' : rhs.Good n)
    (hr : r.subOp cfg rhs = .ok r') : r'.Good n := by
  unfold subOp at hr
  split at hr
  · obtain ⟨a, ha, hr⟩ := bind_eq_ok.mp hr
    exact ofSplines_good (Spline.subOp_good hn h.1.2 ha) h.2.1 hr
  · obtain ⟨a, ha, hr⟩ := bind_eq_ok.mp hr
    obtain ⟨b, hb, hr⟩ := bind_eq_ok.mp hr
    obtain ⟨c, hc, hr⟩ := bind_eq_ok.mp hr
    obtain ⟨d, hd, hr⟩ := bind_eq_ok.mp hr
    have ga := (Spline.mulOp_good hn h.1.2 h'.2.1.2 ha).1
    exact ofSplines_good (Spline.subOp_good hn ga.2 hc) (Spline.mulOp_good hn h.2.1.2 h'.2.1.2 hd).1 hr

theorem addAssign_good {cfg : Cfg} {n : ℕ} (hn : 0 < n) {r rhs r' : RSpline K V} (h : r.Good n) (h' : rhs.Good n)
    (hr : r.addAssign cfg rhs = .ok r') : r'.Good n := by
  unfold addAssign at hr
  split at hr
  · next he =>
    obtain ⟨a, ha, hr⟩ := bind_eq_ok.mp hr
    simp only [pure_eq_ok, Except.ok.injEq] at hr
    subst hr
    refine ⟨Spline.addAssign_good h.1 ha, h.2.1, ?_⟩
    have hd : rhs.num.degrees = r.num.degrees := h'.2.2.trans ((eqOp_degrees he).trans h.2.2.symm)
    unfold Spline.addAssign at ha
    obtain ⟨x, hx, ha⟩ := bind_eq_ok.mp ha
    obtain ⟨_, _, ha⟩ := bind_eq_ok.mp ha
    obtain ⟨_, _, ha⟩ := bind_eq_ok.mp ha
    simp only [pure_eq_ok, Except.ok.injEq] at ha
    rw [hd] at hx
    subst ha
    show x.degrees = _
    rw [elevateTo_self hx]
    exact h.2.2
  · obtain ⟨a, ha, hr⟩ := bind_eq_ok.mp hr
    obtain ⟨b, hb, hr⟩ := bind_eq_ok.mp hr
    obtain ⟨c, hc, hr⟩ := bind_eq_ok.mp hr
    obtain ⟨d, hd, hr⟩ := bind_eq_ok.mp hr
    have ga := (Spline.mulOp_good hn h.1.2 h'.2.1.2 ha).1
    exact assert_good (Spline.addAssign_good ga hc) (Spline.mulOp_good hn h.2.1.2 h'.2.1.2 hd).1 hr

theorem subAssign_good [Sub V] {cfg : Cfg} {n : ℕ} (hn : 0 < n) {r rhs r' : RSpline K V} (h : r.Good n) (h' : rhs.Good n)
    (hr : r.subAssign cfg rhs = .ok r') : r'.Good n := by
  unfold subAssign at hr
  split at hr
  · next he =>
    obtain ⟨a, ha, hr⟩ := bind_eq_ok.mp hr
    simp only [pure_eq_ok, Except.ok.injEq] at hr
    subst hr
    refine ⟨Spline.subAssign_good h.1 ha, h.2.1, ?_⟩
    have hd : rhs.num.degrees = r.num.degrees := h'.2.2.trans ((eqOp_degrees he).trans h.2.2.symm)
    unfold Spline.subAssign at ha
    obtain ⟨x, hx, ha⟩ := bind_eq_ok.mp ha
    obtain ⟨_, _, ha⟩ := bind_eq_ok.mp ha
    obtain ⟨_, _, ha⟩ := bind_eq_ok.mp ha
    simp only [pure_eq_ok, Except.ok.injEq] at ha
    rw [hd] at hx
    subst ha
    show x.degrees = _
    rw [elevateTo_self hx]
    exact h.2.2
  · obtain ⟨a, ha, hr⟩ := bind_eq_ok.mp hr
    obtain ⟨b, hb, hr⟩ := bind_eq_ok.mp hr
    obtain ⟨c, hc, hr⟩ := bind_eq_ok.mp hr
    obtain ⟨d, hd, hr⟩ := bind_eq_ok.mp hr
    have ga := (Spline.mulOp_good hn h.1.2 h'.2.1.2 ha).1
    exact assert_good (Spline.subAssign_good ga hc) (Spline.mulOp_good hn h.2.1.2 h'.2.1.2 hd).1 hr

end

theorem mulOp_good [Zero K] [One K] [Add K] [Mul K] [Div K] [NatCast K] [Zero U] [Add U] [SMul K U] {cfg : Cfg}
    {mul : V → W → U} {n : ℕ} (hn : 0 < n) {r : RSpline K V} {rhs : RSpline K W} {r' : RSpline K U} (h : r.Good n)
    (h' : rhs.Good n) (hr : r.mulOp cfg mul rhs = .ok r') : r'.Good n := by
  unfold mulOp at hr
  obtain ⟨a, ha, hr⟩ := bind_eq_ok.mp hr
  obtain ⟨b, hb, hr⟩ := bind_eq_ok.mp hr
  exact ofSplines_good (Spline.mulOp_good hn h.1.2 h'.1.2 ha).1 (Spline.mulOp_good hn h.2.1.2 h'.2.1.2 hb).1 hr

theorem derivativeSpline_good [Zero K] [One K] [Add K] [Sub K] [Mul K] [Neg K] [Div K] [NatCast K] [Zero V] [Add V]
    [Sub V] [SMul K V] {cfg : Cfg} {n : ℕ} (hn : 0 < n) {r r' : RSpline K V} (h : r.Good n) {orders : List ℕ}
    (hr : r.derivativeSpline cfg orders = .ok r') : r'.Good n := by
  unfold derivativeSpline at hr
  refine loop_ok (P := fun _ (r : RSpline K V) => r.Good n) hr h ?_
  intro k _ x y hx hf
  obtain ⟨o, _, hf⟩ := bind_eq_ok.mp hf
  refine loop_ok (P := fun _ (r : RSpline K V) => r.Good n) hf hx ?_
  intro _ _ x y hx hf
  unfold derivativeStep at hf
  obtain ⟨ord, _, hf⟩ := bind_eq_ok.mp hf
  obtain ⟨du, h1, hf⟩ := bind_eq_ok.mp hf
  obtain ⟨a, h2, hf⟩ := bind_eq_ok.mp hf
  obtain ⟨dw, h3, hf⟩ := bind_eq_ok.mp hf
  obtain ⟨b, h4, hf⟩ := bind_eq_ok.mp hf
  obtain ⟨c, h5, hf⟩ := bind_eq_ok.mp hf
  obtain ⟨e, h6, hf⟩ := bind_eq_ok.mp hf
  obtain ⟨w, h7, hf⟩ := bind_eq_ok.mp hf
  have g2 := (Spline.mulOp_good hn ((Spline.derivativeSpline_dim h1).trans hx.1.2) hx.2.1.2 h2).1
  have g5 := Spline.subOp_good hn g2.2 h5
  exact ofSplines_good (Spline.orderElevate_good g5 h6) (Spline.mulOp_good hn hx.2.1.2 hx.2.1.2 h7).1 hf

section
variable [Zero K] [One K] [Add K] [Sub K] [Mul K] [Neg K] [Div K] [NatCast K] [Coords K W]

theorem _root_.Bezman.Spline.composeNumeratorRational_good [Zero V] [Add V] [SMul K V] {cfg : Cfg} {n : ℕ} (hn : 0 < n)
    {s s' : Spline V} {inner : RSpline K W} (h : inner.Good n) (hr : s.composeNumeratorRational cfg inner = .ok s') :
    s'.Good n := by
  have e : inner.num.degrees.length = n := h.1.2
  have := (Spline.composeNumerator_good (by rw [e]; exact hn) hr).1
  rwa [e] at this

theorem _root_.Bezman.Spline.composeNumeratorSensitivityRational_good {cfg : Cfg} {n : ℕ} (hn : 0 < n)
    {s : Spline V} {inner : RSpline K W} (h : inner.Good n) {l : List (Spline K)}
    (hr : s.composeNumeratorSensitivityRational cfg inner = .ok l) : ∀ b ∈ l, b.Good n := by
  have e : inner.num.degrees.length = n := h.1.2
  have := Spline.composeNumeratorSensitivity_good (by rw [e]; exact hn)
    (fun d x hx => by rw [e]; exact (Spline.extractDimension_good hn h.1.2 hx).1.2)
    (fun d x i hx hi => by rw [e]; exact (Spline.subOp_good hn h.2.1.2 hi).2) hr
  rwa [e] at this

theorem composeRational_good [Zero V] [Add V] [SMul K V] {cfg : Cfg} {n : ℕ} (hn : 0 < n)
    {r r' : RSpline K V} {inner : RSpline K W} (h : inner.Good n) (hr : r.composeRational cfg inner = .ok r') :
    r'.Good n := by
  unfold composeRational at hr
  obtain ⟨a, ha, hr⟩ := bind_eq_ok.mp hr
  obtain ⟨b, hb, hr⟩ := bind_eq_ok.mp hr
  exact ofSplines_good (Spline.composeNumeratorRational_good hn h ha) (Spline.composeNumeratorRational_good hn h hb) hr

theorem rescale_good {n : ℕ} {r : RSpline K V} {ns : List (Spline K)} {den : Spline K} (h1 : ∀ b ∈ ns, b.Good n)
    (h2 : den.Good n) {l : List (RSpline K K)} (hr : r.rescaleSensitivities ns den = .ok l) : ∀ q ∈ l, q.Good n := by
  unfold rescaleSensitivities at hr
  refine loop_ok (P := fun _ (l : List (RSpline K K)) => ∀ q ∈ l, q.Good n) hr (by simp) ?_
  intro k _ a b ha hf
  obtain ⟨x, hx, hf⟩ := bind_eq_ok.mp hf
  obtain ⟨w, _, hf⟩ := bind_eq_ok.mp hf
  obtain ⟨y, hy, hf⟩ := bind_eq_ok.mp hf
  obtain ⟨q, hq, hf⟩ := bind_eq_ok.mp hf
  simp only [pure_eq_ok, Except.ok.injEq] at hf
  subst hf
  intro z hz
  rcases List.mem_append.mp hz with hz | hz
  · exact ha z hz
  · simp only [List.mem_singleton] at hz; subst hz
    exact ofSplines_good (Spline.mapCps_good (h1 _ (List.mem_of_getElem? (rd_ok_iff.mp hx))) hy).1 h2 hq

theorem composeSensitivityRational_good {cfg : Cfg} {n : ℕ} (hn : 0 < n)
    {r : RSpline K V} {inner : RSpline K W} (h : inner.Good n) {l : List (RSpline K K)}
    (hr : r.composeSensitivityRational cfg inner = .ok l) : ∀ q ∈ l, q.Good n := by
  unfold composeSensitivityRational at hr
  obtain ⟨a, ha, hr⟩ := bind_eq_ok.mp hr
  obtain ⟨b, hb, hr⟩ := bind_eq_ok.mp hr
  exact rescale_good (Spline.composeNumeratorSensitivityRational_good hn h ha)
    (Spline.composeNumeratorRational_good hn h hb) hr

variable [LT K] [DecidableLT K]

theorem compose_good [Zero V] [Add V] [SMul K V] {cfg : Cfg} {n : ℕ} (hn : 0 < n)
    {r r' : RSpline K V} {inner : Spline W} (h : inner.dim = n) (hr : r.compose cfg inner = .ok r') :
    r'.Good n := by
  unfold compose at hr
  obtain ⟨a, ha, hr⟩ := bind_eq_ok.mp hr
  obtain ⟨b, hb, hr⟩ := bind_eq_ok.mp hr
  exact ofSplines_good (Spline.compose_good hn h ha) (Spline.compose_good hn h hb) hr

theorem composeSensitivity_good {cfg : Cfg} {n : ℕ} (hn : 0 < n)
    {r : RSpline K V} {inner : Spline W} (h : inner.dim = n) {l : List (RSpline K K)}
    (hr : r.composeSensitivity cfg inner = .ok l) : ∀ q ∈ l, q.Good n := by
  unfold composeSensitivity at hr
  obtain ⟨a, ha, hr⟩ := bind_eq_ok.mp hr
  obtain ⟨b, hb, hr⟩ := bind_eq_ok.mp hr
  exact rescale_good (Spline.composeSensitivity_good hn h ha) (Spline.compose_good hn h hb) hr

variable [BEq K] [ScalarDiv K W]

theorem _root_.Bezman.Spline.composeRational_good [Zero V] [Add V] [SMul K V] {cfg : Cfg} {n : ℕ} (hn : 0 < n)
    {s : Spline V} {inner : RSpline K W} (h : inner.Good n) {r : RSpline K V}
    (hr : s.composeRational cfg inner = .ok r) : r.Good n := by
  unfold Spline.composeRational at hr
  obtain ⟨fits, _, hr⟩ := bind_eq_ok.mp hr
  split at hr
  · cases hr
  · obtain ⟨a, ha, hr⟩ := bind_eq_ok.mp hr
    obtain ⟨b, hb, hr⟩ := bind_eq_ok.mp hr
    exact ofSplines_good (Spline.composeNumeratorRational_good hn h ha) (Spline.raisePower_good hn h.2.1 hb) hr

theorem _root_.Bezman.Spline.composeSensitivityRational_good {cfg : Cfg} {n : ℕ} (hn : 0 < n)
    {s : Spline V} {inner : RSpline K W} (h : inner.Good n) {l : List (RSpline K K)}
    (hr : s.composeSensitivityRational cfg inner = .ok l) : ∀ q ∈ l, q.Good n := by
  unfold Spline.composeSensitivityRational at hr
  obtain ⟨fits, _, hr⟩ := bind_eq_ok.mp hr
  split at hr
  · cases hr
  · obtain ⟨a, ha, hr⟩ := bind_eq_ok.mp hr
    obtain ⟨b, hb, hr⟩ := bind_eq_ok.mp hr
    have g1 := Spline.composeNumeratorSensitivityRational_good hn h ha
    have g2 := Spline.raisePower_good hn h.2.1 hb
    refine loop_ok (P := fun _ (l : List (RSpline K K)) => ∀ q ∈ l, q.Good n) hr (by simp) ?_
    intro k _ a b ha hf
    obtain ⟨x, hx, hf⟩ := bind_eq_ok.mp hf
    obtain ⟨q, hq, hf⟩ := bind_eq_ok.mp hf
    simp only [pure_eq_ok, Except.ok.injEq] at hf
    subst hf
    intro z hz
    rcases List.mem_append.mp hz with hz | hz
    · exact ha z hz
    · simp only [List.mem_singleton] at hz; subst hz
      exact ofSplines_good (g1 _ (List.mem_of_getElem? (rd_ok_iff.mp hx))) g2 hq

end
end RSpline
end Bezman
