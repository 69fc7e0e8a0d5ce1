import Verif.Proofs.ReleaseTable
import Verif.Proofs.Base64
import Verif.Proofs.AnyArith

/-! # What a release build computes where a debug build fails an assertion -/

namespace Bezman
open Spec

/-! ### Bernstein polynomials -/

theorem chooseB_release_ok {cfg : Cfg} (hc : cfg.maxBinom ≤ 68) {n i : ℕ} (hn : n < cfg.maxBinom) (hi : i ≤ n) :
    chooseB .release cfg n i = .ok (n.choose i) := by
  have h := chooseB_agrees cfg n i
  rw [chooseB_debug, choose_ok hc hn hi] at h
  rcases h with h | h
  · exact h.symm
  · cases h

section
variable {K : Type} [Zero K] [One K] [Add K] [Sub K] [Mul K] [Neg K] [NatCast K]

theorem bernsteinEvaluateB_larger {cfg cfg' : Cfg} (hc : cfg.maxBinom ≤ 68) (hc' : cfg'.maxBinom ≤ 68) {p : ℕ} (hp : p < cfg.maxBinom)
    (hp' : p < cfg'.maxBinom) (x : K) : bernsteinEvaluateB .release cfg p x = bernsteinEvaluate cfg' p x := by
  unfold bernsteinEvaluateB bernsteinEvaluate
  rw [assertM_ok (by simpa using hp')]
  rw [show Build.release.assert (decide (p < cfg.maxBinom)) = .ok ⟨⟩ from rfl]
  simp only [bind_ok]
  refine congrArg₂ (· >>= ·) ?_ rfl
  apply loop_congr
  intro i hi r
  rw [chooseB_release_ok hc hp (by omega), choose_ok hc' hp' (by omega)]

theorem bernsteinEvaluateDerivativeB_larger {cfg cfg' : Cfg} (hc : cfg.maxBinom ≤ 68) (hc' : cfg'.maxBinom ≤ 68) {p k : ℕ}
    (hk : 1 ≤ k) (hkc : k < cfg.maxBinom ∨ p < k) (hpk : p - k < cfg.maxBinom) (hp' : p < cfg'.maxBinom) (x : K) :
    bernsteinEvaluateDerivativeB .release cfg p x k = bernsteinEvaluateDerivative cfg' p x k := by
  unfold bernsteinEvaluateDerivativeB bernsteinEvaluateDerivative
  rw [assertM_ok (by simpa using hp')]
  simp only [bind_ok]
  show (if _ then _ else _ : M (List K)) = _
  split
  · rfl
  · rw [if_neg (by omega), if_neg (by omega)]
    have hkc : k < cfg.maxBinom := by omega
    rw [bernsteinEvaluateB_larger hc hc' hpk (by omega)]
    refine congrArg₂ (· >>= ·) rfl ?_
    funext basis
    refine congrArg₂ (· >>= ·) rfl ?_
    funext aux
    apply loop_congr
    intro i hi ev
    refine congrArg₂ (· >>= ·) ?_ rfl
    unfold loopFrom
    apply loop_congr
    intro j hj ev
    beta_reduce
    rw [chooseB_release_ok hc hkc (by omega), choose_ok hc' (by omega) (by omega)]
end

/-! ### Constructors -/

namespace Spline
variable {K V : Type}

theorem ofPointsB_release (ds : List ℕ) (hd : 0 < ds.length) (pts : List V) :
    ofPointsB .release ds pts = .ok ⟨ds, size ds, offsetsOf ds, pts⟩ := by
  unfold ofPointsB
  rw [countCps_eq]
  simp only []
  rw [updateIndexOffsets_ok (by simp) hd]
  rfl

/-- what a run does when there is more memory behind an array -/
def Extends {V : Type} (x : List V) (m m' : M (List V)) : Prop := ∀ l, m = .ok l → m' = .ok (l ++ x)

theorem rd_append {l x : List V} {i : ℕ} {a : V} (h : rd l i = .ok a) : rd (l ++ x) i = .ok a := by
  rw [rd_ok_iff] at h ⊢
  rw [List.getElem?_append_left (by by_contra hc; rw [List.getElem?_eq_none (by omega)] at h; cases h), h]

theorem wr_append {l l' x : List V} {i : ℕ} {a : V} (h : wr l i a = .ok l') : wr (l ++ x) i a = .ok (l' ++ x) := by
  unfold wr at h ⊢
  split at h
  · next hi =>
    injection h with h
    subst h
    rw [if_pos (by simp; omega), List.set_append_left _ _ hi]
  · cases h

theorem loop_append {x : List V} {f : ℕ → List V → M (List V)} (hf : ∀ i l l', f i l = .ok l' → f i (l ++ x) = .ok (l' ++ x))
    (n : ℕ) {l l' : List V} (h : loop n f l = .ok l') : loop n f (l ++ x) = .ok (l' ++ x) := by
  induction n generalizing l' with
  | zero =>
    rw [loop_zero] at h ⊢
    injection h with h
    rw [h]
  | succ n ih =>
    rw [loop_succ] at h ⊢
    obtain ⟨m, hm, h⟩ := bind_eq_ok.mp h
    rw [ih hm, bind_ok]
    exact hf n m l' h

/-- surplus points do not change the result -/
theorem evaluate_append [One K] [Sub K] [Add V] [SMul K V] {s : Spline V} {x : List V} {t : List K} {v : V} (h : s.evaluate t = .ok v) :
    ({ s with cps := s.cps ++ x } : Spline V).evaluate t = .ok v := by
  unfold evaluate at h ⊢
  obtain ⟨r, hr, h⟩ := bind_eq_ok.mp h
  suffices H : ∀ n (r : List V × ℕ), loop n (fun par_dim (r : List V × Nat) => do
      let factor ← rd t par_dim
      let inv_factor := 1 - factor
      let p ← rd s.degrees par_dim
      let off ← rd s.offsets par_dim
      let ctps_to_consider := r.2 / (p + 1)
      let m ← loop ctps_to_consider (fun starting_point_id m =>
        let offset := (off * (p + 1)) * starting_point_id
        loop (p + 1) (fun i m =>
          loop (p - i) (fun j m => do
            let a ← rd m (j * off + offset)
            let b ← rd m ((j + 1) * off + offset)
            wr m (j * off + offset) (inv_factor • a + factor • b)) m) m) r.1
      pure (m, ctps_to_consider)) (s.cps, s.ncp) = .ok r →
      loop n (fun par_dim (r : List V × Nat) => do
      let factor ← rd t par_dim
      let inv_factor := 1 - factor
      let p ← rd s.degrees par_dim
      let off ← rd s.offsets par_dim
      let ctps_to_consider := r.2 / (p + 1)
      let m ← loop ctps_to_consider (fun starting_point_id m =>
        let offset := (off * (p + 1)) * starting_point_id
        loop (p + 1) (fun i m =>
          loop (p - i) (fun j m => do
            let a ← rd m (j * off + offset)
            let b ← rd m ((j + 1) * off + offset)
            wr m (j * off + offset) (inv_factor • a + factor • b)) m) m) r.1
      pure (m, ctps_to_consider)) (s.cps ++ x, s.ncp) = .ok (r.1 ++ x, r.2) by
    have h' := H _ _ hr
    refine bind_eq_ok.mpr ⟨_, h', ?_⟩
    exact rd_append h
  intro n
  induction n with
  | zero =>
    intro r hr
    rw [loop_zero] at hr ⊢
    injection hr with hr
    rw [← hr]
  | succ n ih =>
    intro r hr
    rw [loop_succ] at hr ⊢
    obtain ⟨m, hm, hr⟩ := bind_eq_ok.mp hr
    rw [ih _ hm, bind_ok]
    obtain ⟨f, hf, hr⟩ := bind_eq_ok.mp hr
    obtain ⟨p, hp, hr⟩ := bind_eq_ok.mp hr
    obtain ⟨o, ho, hr⟩ := bind_eq_ok.mp hr
    obtain ⟨l, hl, hr⟩ := bind_eq_ok.mp hr
    simp only [pure_eq_ok, Except.ok.injEq] at hr
    subst hr
    refine bind_eq_ok.mpr ⟨f, hf, bind_eq_ok.mpr ⟨p, hp, bind_eq_ok.mpr ⟨o, ho, bind_eq_ok.mpr ⟨l ++ x, ?_, rfl⟩⟩⟩⟩
    refine loop_append (fun _ _ _ h => ?_) _ hl
    refine loop_append (fun _ _ _ h => ?_) _ h
    refine loop_append (fun _ _ _ h => ?_) _ h
    obtain ⟨a, ha, h⟩ := bind_eq_ok.mp h
    obtain ⟨b, hb, h⟩ := bind_eq_ok.mp h
    exact bind_eq_ok.mpr ⟨a, rd_append ha, bind_eq_ok.mpr ⟨b, rd_append hb, wr_append h⟩⟩

theorem loop_error_mono {σ : Type} {f : ℕ → σ → M σ} {s : σ} {e : Err} {k n : ℕ} (h : loop k f s = .error e) (hn : k ≤ n) :
    loop n f s = .error e := by
  induction n, hn using Nat.le_induction with
  | base => exact h
  | succ n _ ih => rw [loop_succ, ih]; rfl

/-- undefined behaviour is the only error -/
def OkOrUb {α : Type} (x : M α) : Prop := ∀ e, x = .error e → e = .ub

theorem OkOrUb.bind {α β : Type} {x : M α} {f : α → M β} (hx : OkOrUb x) (hf : ∀ a, OkOrUb (f a)) : OkOrUb (x >>= f) := by
  intro e he
  cases x with
  | ok a => exact hf a e he
  | error e' => cases he; exact hx _ rfl

theorem OkOrUb.loop {σ : Type} {f : ℕ → σ → M σ} (hf : ∀ k s, OkOrUb (f k s)) : ∀ (n : ℕ) (s : σ), OkOrUb (loop n f s)
  | 0, _ => fun _ he => by cases he
  | n + 1, s => OkOrUb.bind (OkOrUb.loop hf n s) fun _ => hf n _

theorem OkOrUb.rd {α : Type} (l : List α) (i : ℕ) : OkOrUb (rd l i) := by
  intro e he; unfold Bezman.rd at he; split at he <;> cases he; rfl

theorem OkOrUb.wr {α : Type} (l : List α) (i : ℕ) (x : α) : OkOrUb (wr l i x) := by
  intro e he; unfold Bezman.wr at he; split at he <;> cases he; rfl

/-- every round of a loop that succeeds has succeeded -/
theorem loop_ok_at {σ : Type} {n : ℕ} {f : ℕ → σ → M σ} {s s' : σ} (h : loop n f s = .ok s') (P : σ → Prop) (h0 : P s)
    (hP : ∀ k < n, ∀ s s', P s → f k s = .ok s' → P s') : ∀ k < n, ∃ s s', P s ∧ f k s = .ok s' := by
  induction n generalizing s' with
  | zero => intro k hk; omega
  | succ n ih =>
    rw [loop_succ] at h
    obtain ⟨s1, h1, h2⟩ := bind_eq_ok.mp h
    intro k hk
    rcases Nat.lt_succ_iff_lt_or_eq.mp hk with hk | rfl
    · exact ih h1 (fun k hk => hP k (by omega)) k hk
    · exact ⟨s1, s', loop_ok (fun _ => P) h1 h0 fun k hk s s' hs e => hP k (by omega) s s' hs e, h2⟩

theorem wr_ok_length {α : Type} {l l' : List α} {i : ℕ} {x : α} (h : wr l i x = .ok l') : l'.length = l.length := by
  unfold wr at h; split at h <;> cases h; simp

/-- a spline with points missing cannot be evaluated -/
theorem evaluate_missing [One K] [Sub K] [Add V] [SMul K V] (ds : List ℕ) (pts : List V) (h : pts.length < size ds) (t : List K) :
    (⟨ds, size ds, offsetsOf ds, pts⟩ : Spline V).evaluate t = .error .ub := by
  have hub : OkOrUb ((⟨ds, size ds, offsetsOf ds, pts⟩ : Spline V).evaluate t) := by
    unfold evaluate
    refine .bind (.loop (fun d r => .bind (.rd _ _) fun x => .bind (.rd _ _) fun p => .bind (.rd _ _) fun o => .bind (.loop (fun _ _ => .loop
      (fun _ _ => .loop (fun _ _ => .bind (.rd _ _) fun _ => .bind (.rd _ _) fun _ => .wr _ _ _) _ _) _ _) _ _) fun m e he => by cases he) _ _)
      fun r => .rd _ _
  cases he : (⟨ds, size ds, offsetsOf ds, pts⟩ : Spline V).evaluate t with
  | error e => rw [hub e he]
  | ok v =>
    exfalso
    unfold evaluate at he
    obtain ⟨r, h1, h2⟩ := bind_eq_ok.mp he
    have key := loop_ok (fun k (r : List V × ℕ) => r.1.length = pts.length ∧ r.2 * size (ds.take k) = size ds ∧
      (size (ds.take k) ≠ 1 → size ds ≤ pts.length)) h1 ⟨rfl, by simp [size], fun h => absurd (by simp [size]) h⟩ ?_
    · obtain ⟨k1, k2, k3⟩ := key
      simp only [dim, List.take_length] at k2 k3
      have h3 := rd_ok_iff.mp h2
      have h4 := (List.getElem?_eq_some_iff.mp h3).1
      rw [k1] at h4
      by_cases hs : size ds = 1
      · omega
      · have := k3 hs; omega
    · intro k hk r r' ⟨i1, i2, i3⟩ hr
      obtain ⟨x, -, hr⟩ := bind_eq_ok.mp hr
      obtain ⟨p, hp, hr⟩ := bind_eq_ok.mp hr
      obtain ⟨o, ho, hr⟩ := bind_eq_ok.mp hr
      obtain ⟨m, hm, hr⟩ := bind_eq_ok.mp hr
      injection hr with hr
      subst hr
      have hk : k < ds.length := hk
      have hp : ds[k]? = some p := rd_ok_iff.mp hp
      have ho := rd_ok_iff.mp ho
      rw [show (⟨ds, size ds, offsetsOf ds, pts⟩ : Spline V).offsets = offsetsOf ds from rfl, offsetsOf_getElem? hk] at ho
      injection ho with ho
      have hlen : ∀ (sp i j : ℕ) (m m' : List V), m.length = pts.length → (do
          let a ← rd m (j * o + (o * (p + 1)) * sp)
          let b ← rd m ((j + 1) * o + (o * (p + 1)) * sp)
          wr m (j * o + (o * (p + 1)) * sp) ((1 - x) • a + x • b)) = .ok m' → m'.length = pts.length := by
        intro sp i j m m' hl e
        obtain ⟨a, -, e⟩ := bind_eq_ok.mp e
        obtain ⟨b, -, e⟩ := bind_eq_ok.mp e
        rw [wr_ok_length e, hl]
      have hlen2 : ∀ (sp i : ℕ) (m m' : List V), m.length = pts.length → loop (p - i) (fun j m => do
          let a ← rd m (j * o + (o * (p + 1)) * sp)
          let b ← rd m ((j + 1) * o + (o * (p + 1)) * sp)
          wr m (j * o + (o * (p + 1)) * sp) ((1 - x) • a + x • b)) m = .ok m' → m'.length = pts.length :=
        fun sp i m m' hl e => loop_ok (fun _ m => m.length = pts.length) e hl fun j _ m m' hl e => hlen sp i j m m' hl e
      have hlen3 : ∀ (sp : ℕ) (m m' : List V), m.length = pts.length → loop (p + 1) (fun i m => loop (p - i) (fun j m => do
          let a ← rd m (j * o + (o * (p + 1)) * sp)
          let b ← rd m ((j + 1) * o + (o * (p + 1)) * sp)
          wr m (j * o + (o * (p + 1)) * sp) ((1 - x) • a + x • b)) m) m = .ok m' → m'.length = pts.length :=
        fun sp m m' hl e => loop_ok (fun _ m => m.length = pts.length) e hl fun i _ m m' hl e => hlen2 sp i m m' hl e
      have hts := size_take_succ hp
      have hspl : size ds = size (ds.take (k + 1)) * size (ds.drop (k + 1)) := by
        rw [← size_append, List.take_append_drop]
      have hpos : 0 < size (ds.take k) := size_pos _
      have hc : r.2 = (p + 1) * size (ds.drop (k + 1)) := by
        refine Nat.eq_of_mul_eq_mul_right hpos ?_
        rw [i2, hspl, hts]; ring
      have hcd : r.2 / (p + 1) = size (ds.drop (k + 1)) := by rw [hc, Nat.mul_div_cancel_left _ (by omega)]
      refine ⟨loop_ok (fun _ m => m.length = pts.length) hm i1 fun sp _ m m' hl e => hlen3 sp m m' hl e, ?_, ?_⟩
      · show r.2 / (p + 1) * _ = _
        rw [hcd, hspl, mul_comm]
      · intro hne
        by_cases h1 : size (ds.take k) = 1
        · have hp0 : 0 < p := by
            rcases Nat.eq_zero_or_pos p with rfl | h
            · rw [hts, h1] at hne; exact absurd rfl hne
            · exact h
          have hdp : 0 < size (ds.drop (k + 1)) := size_pos _
          obtain ⟨m1, m2, l1, e1⟩ := loop_ok_at hm (fun m => m.length = pts.length) i1 (fun sp _ m m' hl e => hlen3 sp m m' hl e)
            (r.2 / (p + 1) - 1) (by rw [hcd]; omega)
          obtain ⟨m3, m4, l2, e2⟩ := loop_ok_at e1 (fun m => m.length = pts.length) l1 (fun i _ m m' hl e => hlen2 _ i m m' hl e) 0 (by omega)
          obtain ⟨m5, m6, l3, e3⟩ := loop_ok_at e2 (fun m => m.length = pts.length) l2 (fun j _ m m' hl e => hlen _ 0 j m m' hl e) (p - 1) (by omega)
          obtain ⟨a, -, e3⟩ := bind_eq_ok.mp e3
          obtain ⟨b, hb, e3⟩ := bind_eq_ok.mp e3
          have hb := (List.getElem?_eq_some_iff.mp (rd_ok_iff.mp hb)).1
          rw [l3, ← ho, h1, hcd, Nat.sub_add_cancel hp0, one_mul, mul_one] at hb
          rw [hspl, hts, h1, one_mul]
          obtain ⟨q, hq⟩ : ∃ q, size (ds.drop (k + 1)) = q + 1 := ⟨_, (Nat.succ_pred_eq_of_pos hdp).symm⟩
          rw [hq, Nat.add_sub_cancel] at hb
          rw [hq]
          nlinarith
        · exact i3 h1

theorem weightedSum_missing [Zero V] [Add V] [SMul K V] (l : List K) (pts : List V) (h : pts.length < l.length) :
    weightedSum l pts = .error .ub := by
  unfold weightedSum
  have hub : OkOrUb (loop l.length (fun i (acc : V) => do
      let f ← rd l i
      let c ← rd pts i
      pure (acc + f • c)) 0) := .loop (fun _ _ => .bind (.rd _ _) fun _ => .bind (.rd _ _) fun _ e he => by cases he) _ _
  cases he : loop l.length (fun i (acc : V) => do
      let f ← rd l i
      let c ← rd pts i
      pure (acc + f • c)) 0 with
  | error e => rw [hub e he]
  | ok v =>
    obtain ⟨_, _, -, e⟩ := loop_ok_at he (fun _ => True) trivial (fun _ _ _ _ _ _ => trivial) pts.length h
    obtain ⟨_, -, e⟩ := bind_eq_ok.mp e
    obtain ⟨_, e, -⟩ := bind_eq_ok.mp e
    rw [rd_ub le_rfl] at e
    cases e

theorem weightedSum_append [Zero V] [Add V] [SMul K V] (l : List K) (pts surplus : List V) (h : l.length ≤ pts.length) :
    weightedSum l (pts ++ surplus) = weightedSum l pts := by
  unfold weightedSum
  apply loop_congr
  intro k hk acc
  rw [show rd (pts ++ surplus) k = rd pts k by unfold rd; rw [List.getElem?_append_left (by omega)]]

end Spline

/-! ### Automatic differentiation -/

namespace ADT
variable {K : Type}

theorem zipD_take (f : K → K → M K) (d e : List K) (h : d.length ≤ e.length) : zipD f d e = zipD f d (e.take d.length) := by
  unfold zipD
  apply loop_congr
  intro i hi l
  have : rd (e.take d.length) i = rd e i := by
    unfold rd
    rw [List.getElem?_take_of_lt hi]
  rw [this]

theorem zipD_missing (f : K → K → M K) (hf : ∀ x y, ∃ z, f x y = .ok z) (d e : List K) (h : e.length < d.length) :
    zipD f d e = .error .ub := by
  unfold zipD
  refine Spline.loop_error_mono (k := e.length + 1) ?_ (by omega)
  have H : ∀ k, k ≤ e.length → ∃ l, loop k (fun i d => do
      let x ← rd d i
      let y ← rd e i
      let z ← f x y
      wr d i z) d = .ok l ∧ l.length = d.length := by
    intro k
    induction k with
    | zero => intro _; exact ⟨d, rfl, rfl⟩
    | succ k ih =>
      intro hk
      obtain ⟨l, h1, h2⟩ := ih (by omega)
      obtain ⟨z, hz⟩ := hf (l[k]'(by omega)) (e[k]'(by omega))
      rw [loop_succ, h1, bind_ok]
      simp only [rd_getElem (show k < l.length by omega), rd_getElem (show k < e.length by omega), bind_ok, hz]
      rw [wr_ok _ (by omega)]
      exact ⟨_, rfl, by simp [h2]⟩
  obtain ⟨l, h1, h2⟩ := H _ le_rfl
  rw [loop_succ, h1, bind_ok]
  simp only [rd_getElem (show e.length < l.length by omega), bind_ok]
  unfold rd
  rw [List.getElem?_eq_none le_rfl]
  rfl

end ADT

/-! ### Base64 -/

namespace Base64

theorem decodeB_release (L : ℕ) (s x : List ℕ) (hs : s.length % 4 = 0) (hx : x.length < 4) :
    decodeB .release L (s ++ x) = decode L s := by
  have hl : (s ++ x).length / 4 = s.length / 4 := by rw [List.length_append]; omega
  unfold decodeB decode
  rw [assertM_ok (by simpa using hs), hl]
  rw [show Build.release.assert ((s ++ x).length % 4 == 0) = .ok ⟨⟩ from rfl]
  simp only [bind_ok]
  refine congrArg₂ (· >>= ·) rfl ?_
  funext n
  split
  · rfl
  · refine congrArg₂ (· >>= ·) rfl ?_
    funext table
    refine congrArg₂ (· >>= ·) ?_ rfl
    apply loop_congr
    intro i hi bytes
    refine congrArg₂ (· >>= ·) ?_ rfl
    apply loop_congr
    intro j hj buffer
    have : rd (s ++ x) (i * 4 + j) = rd s (i * 4 + j) := by
      unfold rd
      rw [List.getElem?_append_left (by omega)]
    rw [this]

theorem decodePointsB_release {d L : ℕ} (hd : 0 < d) {s : List ℕ} {w : List (List ℕ)} (hw : decodeB .release L s = .ok w) :
    decodePointsB .release d L s = .ok (tab (w.length / d) (fun j => tab d (fun i => w.getD (j * d + i) []))) := by
  unfold decodePointsB
  rw [hw]
  simp only [bind_ok]
  rw [divU_ok hd]
  simp only [bind_ok]
  rw [modU_ok hd]
  simp only [bind_ok]
  exact decodePoints_loop d L w

end Base64
end Bezman
