import Verif.Model.History
import Verif.Proofs.Elevate

/-! Every mutator that returns keeps the bookkeeping invariant. -/

namespace Bezman
open Spec

theorem loopDown_ok {σ : Type} {n : ℕ} {f : ℕ → σ → M σ} {s s' : σ} (P : σ → Prop) (h : loopDown n f s = .ok s')
    (h0 : P s) (hstep : ∀ k, k < n → ∀ s s', P s → f k s = .ok s' → P s') : P s' :=
  loop_ok (P := fun _ s => P s) h h0 (fun k hk s s' hs hf => hstep (n - 1 - k) (by omega) s s' hs hf)

theorem wr_len {α : Type} {l l' : List α} {i : ℕ} {x : α} (h : wr l i x = .ok l') : l'.length = l.length := by
  unfold wr at h
  split at h
  · injection h with h; subst h; simp
  · cases h

theorem wr_eq {α : Type} {l l' : List α} {i : ℕ} {x : α} (h : wr l i x = .ok l') : i < l.length ∧ l' = l.set i x := by
  unfold wr at h
  split at h
  · next hi => injection h with h; subst h; exact ⟨hi, rfl⟩
  · cases h

namespace Spline
variable {K V : Type}

theorem elevStore_len {value : List V → M V} {st st' : List V × ℕ} (h : elevStore value st = .ok st') :
    st'.1.length = st.1.length := by
  unfold elevStore at h
  obtain ⟨x, _, h⟩ := bind_eq_ok.mp h
  obtain ⟨m, h1, h⟩ := bind_eq_ok.mp h
  simp only [pure_eq_ok, Except.ok.injEq] at h; subst h
  exact wr_len h1

theorem resize_len [Zero V] (l : List V) (n : ℕ) : (resize l n).length = n := by
  simp [resize]; omega

/-- Order elevation, whenever it returns. -/
theorem orderElevate_wf [One K] [Sub K] [Mul K] [Div K] [NatCast K] [Zero V] [Add V] [SMul K V]
    {s s' : Spline V} (h : s.WF) {d : ℕ} (hr : orderElevate K s d = .ok s') :
    s'.WF ∧ ∃ p, s.degrees[d]? = some p ∧ s'.degrees = s.degrees.set d (p + 1) := by
  unfold orderElevate at hr
  obtain ⟨p, hp, hr⟩ := bind_eq_ok.mp hr
  rw [rd_ok_iff] at hp
  obtain ⟨off, _, hr⟩ := bind_eq_ok.mp hr
  obtain ⟨_, _, hr⟩ := bind_eq_ok.mp hr
  obtain ⟨_, _, hr⟩ := bind_eq_ok.mp hr
  obtain ⟨_, _, hr⟩ := bind_eq_ok.mp hr
  obtain ⟨_, _, hr⟩ := bind_eq_ok.mp hr
  simp only [] at hr
  obtain ⟨nd, hnd, hr⟩ := bind_eq_ok.mp hr
  obtain ⟨_, _, hr⟩ := bind_eq_ok.mp hr
  obtain ⟨st, hst, hr⟩ := bind_eq_ok.mp hr
  obtain ⟨o, ho, hr⟩ := bind_eq_ok.mp hr
  simp only [pure_eq_ok, Except.ok.injEq] at hr
  obtain ⟨hd, rfl⟩ := wr_eq hnd
  have hlen : st.1.length = s.ncp / (p + 1) * (p + 2) := by
    refine loopDown_ok (P := fun st : List V × ℕ => st.1.length = s.ncp / (p + 1) * (p + 2)) hst
      (resize_len _ _) ?_
    intro k _ st st' hs hf
    obtain ⟨_, _, hf⟩ := bind_eq_ok.mp hf
    obtain ⟨st1, h1, hf⟩ := bind_eq_ok.mp hf
    obtain ⟨st2, h2, h3⟩ := bind_eq_ok.mp hf
    have a1 := loopDown_ok (P := fun st : List V × ℕ => st.1.length = s.ncp / (p + 1) * (p + 2)) h1 hs
      (fun _ _ _ _ hs hf => (elevStore_len hf).trans hs)
    have a2 := loopDown_ok (P := fun st : List V × ℕ => st.1.length = s.ncp / (p + 1) * (p + 2)) h2 a1
      (fun _ _ _ _ hs hf => loopDown_ok (P := fun st : List V × ℕ => st.1.length = s.ncp / (p + 1) * (p + 2)) hf hs
        (fun _ _ _ _ hs hf => (elevStore_len hf).trans hs))
    exact loopDown_ok (P := fun st : List V × ℕ => st.1.length = s.ncp / (p + 1) * (p + 2)) h3 a2
      (fun _ _ _ _ hs hf => (elevStore_len hf).trans hs)
  have hN : s.ncp / (p + 1) * (p + 2) = size (s.degrees.set d (p + 1)) := by
    rw [h.ncp_eq, set_split hp, size_append, size_cons]
    conv_lhs => rw [list_split hp, size_append, size_cons]
    rw [show ∀ a b : ℕ, a * ((p + 1) * b) = (p + 1) * (a * b) from fun a b => by ring,
      Nat.mul_div_cancel_left _ (Nat.succ_pos p)]
    ring
  rw [updateIndexOffsets_ok (by rw [h.off_len]; simp [dim]) (by have := h.dim_pos; simpa using this)] at ho
  injection ho with ho
  subst hr ho
  exact ⟨⟨by have := h.dim_pos; simpa using this, hN, rfl, hlen.trans hN⟩, p, hp, rfl⟩

theorem mapCps_wf {s s' : Spline V} (h : s.WF) {f : V → V} (hr : s.mapCps f = .ok s') :
    s'.WF ∧ s'.degrees = s.degrees := by
  unfold mapCps at hr
  obtain ⟨c, hc, hr⟩ := bind_eq_ok.mp hr
  simp only [pure_eq_ok, Except.ok.injEq] at hr
  have hlen := loop_ok (P := fun _ (c : List V) => c.length = s.cps.length) hc rfl (by
    intro k _ c c' hs hf
    obtain ⟨x, _, hf⟩ := bind_eq_ok.mp hf
    exact (wr_len hf).trans hs)
  subst hr
  exact ⟨⟨h.dim_pos, h.ncp_eq, h.offsets_eq, hlen.trans h.cps_len⟩, rfl⟩

theorem setCps_wf {s : Spline V} (h : s.WF) {c : List V} (hc : c.length = s.cps.length) :
    WF { s with cps := c } := ⟨h.dim_pos, h.ncp_eq, h.offsets_eq, hc.trans h.cps_len⟩

theorem zipCps_len {n : ℕ} {f : V → V → V} {a b c : List V} (h : zipCps n f a b = .ok c) :
    c.length = a.length := by
  unfold zipCps at h
  refine loop_ok (P := fun _ (c : List V) => c.length = a.length) h rfl ?_
  intro k _ c c' hs hf
  obtain ⟨x, _, hf⟩ := bind_eq_ok.mp hf
  obtain ⟨y, _, hf⟩ := bind_eq_ok.mp hf
  exact (wr_len hf).trans hs

theorem elevateTo_wf [One K] [Sub K] [Mul K] [Div K] [NatCast K] [Zero V] [Add V] [SMul K V] {cfg : Cfg}
    {s s' : Spline V} (h : s.WF) {target : List ℕ} (hr : elevateTo K cfg s target = .ok s') :
    s'.WF ∧ s'.dim = s.dim := by
  unfold elevateTo at hr
  refine loop_ok (P := fun _ (s' : Spline V) => s'.WF ∧ s'.dim = s.dim) hr ⟨h, rfl⟩ ?_
  intro k _ a b ha hf
  refine (whileM_ok (P := fun (s' : Spline V) => s'.WF ∧ s'.dim = s.dim) ?_ _ _ _ ha hf).1
  intro x y hx _ hxy
  obtain ⟨w, p, _, hd⟩ := orderElevate_wf hx.1 hxy
  exact ⟨w, by rw [← hx.2]; simp [dim, hd]⟩

theorem updateDegrees_wf [Zero V] {s s' : Spline V} {n : ℕ} (hn : 0 < n) (ho : s.offsets.length = n)
    {nd : List ℕ} (hl : nd.length = n) (hr : s.updateDegrees nd = .ok s') : s'.WF ∧ s'.degrees = nd := by
  unfold updateDegrees at hr
  simp only [] at hr
  rw [updateIndexOffsets_ok (by rw [ho, hl]) (by omega)] at hr
  simp only [bind_ok, pure_eq_ok, Except.ok.injEq] at hr
  subst hr
  exact ⟨⟨by simpa [hl] using hn, countCps_eq _, rfl, by simp [resize_len, countCps_eq]⟩, rfl⟩

variable [Coords K V] [One K] [Add K] [Sub K] [Mul K] [Div K] [NatCast K] [LT K] [DecidableLT K]
  [Zero V] [Add V] [Sub V] [Neg V] [SMul K V]

theorem apply_wf {cfg : Cfg} {s s' : Spline V} (h : s.WF) {m : Mutator K V} (ht : m.Typed s.dim)
    (hr : m.apply cfg s = .ok s') : s'.WF ∧ s'.dim = s.dim := by
  have map : ∀ {f : V → V}, s.mapCps f = .ok s' → s'.WF ∧ s'.dim = s.dim := fun hr =>
    ⟨(mapCps_wf h hr).1, by rw [dim, (mapCps_wf h hr).2]; rfl⟩
  have wrc : ∀ {i x} {c : List V}, wr s.cps i x = .ok c → s' = { s with cps := c } → s'.WF ∧ s'.dim = s.dim := by
    intro i x c hc e
    subst e
    exact ⟨setCps_wf h (wr_len hc), rfl⟩
  have asg : ∀ {rhs : Spline V} (op : V → V → V),
      (do let s ← elevateTo K cfg s rhs.degrees
          let rhs ← elevateTo K cfg rhs s.degrees
          let cps ← zipCps s.ncp op s.cps rhs.cps
          pure { s with cps := cps } : M (Spline V)) = .ok s' → s'.WF ∧ s'.dim = s.dim := by
    intro rhs op hr
    obtain ⟨a, ha, hr⟩ := bind_eq_ok.mp hr
    obtain ⟨b, hb, hr⟩ := bind_eq_ok.mp hr
    obtain ⟨c, hc, hr⟩ := bind_eq_ok.mp hr
    simp only [pure_eq_ok, Except.ok.injEq] at hr
    subst hr
    obtain ⟨wa, da⟩ := elevateTo_wf h ha
    exact ⟨setCps_wf wa (zipCps_len hc), da⟩
  cases m with
  | updateDegrees nd =>
    obtain ⟨w, hd⟩ := updateDegrees_wf h.dim_pos (by rw [h.off_len]; rfl) ht hr
    exact ⟨w, by rw [dim, hd]; exact ht⟩
  | orderElevate d =>
    obtain ⟨w, p, _, hd⟩ := orderElevate_wf h hr
    exact ⟨w, by simp [dim, hd]⟩
  | scale c => exact map hr
  | addPoint v => exact map hr
  | subPoint v => exact map hr
  | addAssign rhs => exact asg _ hr
  | subAssign rhs => exact asg _ hr
  | transposeAndScale t c => exact map hr
  | fitIntoUnitCube =>
    unfold Mutator.apply fitIntoUnitCube at hr
    obtain ⟨_, _, hr⟩ := bind_eq_ok.mp hr
    obtain ⟨_, _, hr⟩ := bind_eq_ok.mp hr
    exact map hr
  | setControlPoint idx x =>
    unfold Mutator.apply setControlPoint at hr
    obtain ⟨i, _, hr⟩ := bind_eq_ok.mp hr
    obtain ⟨c, hc, hr⟩ := bind_eq_ok.mp hr
    simp only [pure_eq_ok, Except.ok.injEq] at hr
    exact wrc hc hr.symm
  | setEntry i x =>
    unfold Mutator.apply at hr
    obtain ⟨c, hc, hr⟩ := bind_eq_ok.mp hr
    simp only [pure_eq_ok, Except.ok.injEq] at hr
    exact wrc hc hr.symm

theorem runHistory_wf {cfg : Cfg} (ms : List (Mutator K V)) : ∀ {s s' : Spline V}, s.WF → (∀ m ∈ ms, m.Typed s.dim) →
    runHistory cfg s ms = .ok s' → s'.WF ∧ s'.dim = s.dim := by
  induction ms with
  | nil =>
    intro s s' h _ hr
    simp only [runHistory, pure_eq_ok, Except.ok.injEq] at hr
    subst hr; exact ⟨h, rfl⟩
  | cons m ms ih =>
    intro s s' h ht hr
    obtain ⟨s1, h1, hr⟩ := bind_eq_ok.mp hr
    obtain ⟨w, hd⟩ := apply_wf h (ht m (by simp)) h1
    obtain ⟨w', hd'⟩ := ih w (fun m hm => by rw [hd]; exact ht m (by simp [hm])) hr
    exact ⟨w', hd'.trans hd⟩

end Spline
end Bezman
