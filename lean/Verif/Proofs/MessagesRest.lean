import Verif.Proofs.MessagesClimb
import Verif.Proofs.AnyArithRational

/-! # Messages: splits, rational splines and compositions -/

namespace Bezman

namespace Said
variable {α β σ : Type}

/-- if the call returns, result and messages are as described -/
def Logs (x : Said α) (P : α → List Msg → Prop) : Prop := ∀ a, x.out = .ok a → P a x.log

theorem Logs.bind {x : Said α} {f : α → Said β} {P : α → List Msg → Prop} {Q : β → List Msg → Prop} (h : Logs x P)
    (hf : ∀ a, P a x.log → Logs (f a) fun b l => Q b (x.log ++ l)) : Logs (x >>= f) Q := by
  intro b hb
  rw [out_bind] at hb
  obtain ⟨a, ha, hb⟩ := bind_eq_ok.mp hb
  rw [log_bind_ok ha]
  exact hf a (h a ha) b hb

theorem Logs.lift_bind {m : M α} {f : α → Said β} {Q : β → List Msg → Prop} (h : ∀ a, m = .ok a → Logs (f a) Q) :
    Logs (lift m >>= f) Q :=
  .bind (P := fun a _ => m = .ok a) (fun _ h => h) fun a ha => by simpa using h a ha

theorem Logs.lift {m : M α} {Q : α → List Msg → Prop} (h : ∀ a, m = .ok a → Q a []) : Logs (Said.lift m) Q := h

theorem Logs.pure {a : α} {Q : α → List Msg → Prop} (h : Q a []) : Logs (Pure.pure a) Q := by rintro _ ⟨⟩; exact h

theorem Logs.terminate {t : String} {Q : α → List Msg → Prop} : Logs (Said.terminate t) Q := by rintro _ ⟨⟩

theorem Logs.loopS {n : ℕ} {f : ℕ → σ → Said σ} {s : σ} {I : ℕ → σ → List Msg → Prop} (h0 : I 0 s [])
    (h : ∀ i < n, ∀ s l, I i s l → Logs (f i s) fun s' l' => I (i + 1) s' (l ++ l')) : Logs (Said.loopS n f s) (I n) := by
  induction n with
  | zero => exact .pure h0
  | succ n ih =>
    exact .bind (ih fun i hi => h i (by omega)) fun a ha => h n (by omega) a _ ha

end Said

namespace Messages
open Said Spec
variable {K V W : Type}

/-! ## Splits -/

section
variable [Zero K] [One K] [Sub K] [LT K] [DecidableLT K] [Add V] [SMul K V]

omit [Sub K] in
theorem splits_append (k : ℕ) (tx : K → String) (d : ℕ) (a : List K) (b : List K) :
    splits k tx d (a ++ b) = splits k tx d a ++ if ∀ z ∈ a, 0 < z ∧ z < 1 then splits k tx d b else [] := by
  induction a with
  | nil => simp [splits]
  | cons z a ih =>
    rw [List.cons_append, splits, splits]
    by_cases hz : 0 < z ∧ z < 1
    · rw [if_pos hz, if_pos hz, ih, List.append_assoc]
      congr 2
      simp [hz]
    · rw [if_neg hz, if_neg hz, if_neg (fun h => hz (h z (by simp)))]
      simp

omit [Zero K] [LT K] [DecidableLT K] in
theorem relative_length [Div K] (z : K) (zs : List K) : (relative (z :: zs)).length = zs.length := by
  induction zs generalizing z with
  | nil => rfl
  | cons y zs ih => rw [relative, List.length_cons, ih, List.length_cons]

omit [Zero K] [LT K] [DecidableLT K] in
theorem relative_get [Div K] (zs : List K) (i : ℕ) (a b : K) (ha : zs[i]? = some a) (hb : zs[i + 1]? = some b) :
    (relative zs)[i]? = some ((b - a) / (1 - a)) := by
  induction zs generalizing i with
  | nil => simp at ha
  | cons z zs ih =>
    cases zs with
    | nil => simp at hb
    | cons y zs =>
      rw [relative]
      cases i with
      | zero => simp at ha hb; simp [ha, hb]
      | succ i => simpa using ih i (by simpa using ha) (by simpa using hb)

/-- a sequence of splits, one step -/
theorem steps_log {σ : Type} [Div K] {k : ℕ} {tx : K → String} {d : ℕ} {zs : List K} {f : ℕ → σ → Said σ} {G : σ → Prop}
    (hf : ∀ i x z, G x → (relative zs)[i]? = some z →
      (f i x).log = splits k tx d [z] ∧ ((0 < z ∧ z < 1) → ∃ y, (f i x).out = .ok y ∧ G y) ∧ (¬ (0 < z ∧ z < 1) → (f i x).out = .error .throws))
    {x : σ} (hx : G x) (n : ℕ) (hn : n ≤ (relative zs).length) :
    (loopS n f x).log = splits k tx d ((relative zs).take n) ∧
      ((∀ z ∈ (relative zs).take n, 0 < z ∧ z < 1) → ∃ y, (loopS n f x).out = .ok y ∧ G y) ∧
      (¬ (∀ z ∈ (relative zs).take n, 0 < z ∧ z < 1) → (loopS n f x).out = .error .throws) := by
  induction n with
  | zero => exact ⟨rfl, fun _ => ⟨x, rfl, hx⟩, fun h => absurd (by simp) h⟩
  | succ n ih =>
    obtain ⟨h1, h2, h3⟩ := ih (by omega)
    have hz : (relative zs)[n]? = some (relative zs)[n] := List.getElem?_eq_getElem hn
    have ht : (relative zs).take (n + 1) = (relative zs).take n ++ [(relative zs)[n]] := by
      rw [List.take_add_one, hz]; rfl
    rw [ht, splits_append, ← h1, loopS]
    by_cases hall : ∀ z ∈ (relative zs).take n, 0 < z ∧ z < 1
    · obtain ⟨y, e, g⟩ := h2 hall
      obtain ⟨f1, f2, f3⟩ := hf n y _ g hz
      rw [log_bind_ok e, f1, if_pos hall, out_bind, e, bind_ok]
      refine ⟨rfl, fun h => f2 (h _ (List.mem_append_right _ (List.mem_singleton.mpr rfl))), fun h => f3 fun hc => h ?_⟩
      intro z hz'
      rcases List.mem_append.mp hz' with hz' | hz'
      · exact hall z hz'
      · simp only [List.mem_singleton] at hz'; subst hz'; exact hc
    · rw [log_bind_error (h3 hall), if_neg hall, out_bind, h3 hall]
      exact ⟨by simp, fun h => absurd (fun z hz => h z (List.mem_append_left _ hz)) hall, fun _ => rfl⟩

theorem loopFromS_one {σ : Type} (n : ℕ) (f : ℕ → σ → Said σ) (s : σ) : loopFromS 1 n f s = loopS (n - 1) (fun i s => f (1 + i) s) s := rfl

end
section
variable [Zero K] [One K] [Sub K] [LT K] [DecidableLT K] [Add V] [SMul K V]

theorem splitAt_one (tx : K → String) (s : Spline V) (z : K) (d : ℕ) : (splitAt tx s z d).log = splits 1 tx d [z] := by
  rw [log_splitAt, splits]
  split <;> simp [splits]

end

section
variable [Zero K] [One K] [Add K] [Sub K] [Mul K] [Div K] [NatCast K] [LT K] [DecidableLT K] [Zero V] [Add V] [SMul K V]

omit [Zero K] [Add K] [Mul K] [NatCast K] [LT K] [DecidableLT K] in
theorem relative_at {zs : List K} {i : ℕ} {z : K} (h : (relative zs)[i]? = some z) :
    ∃ a b, zs[i]? = some a ∧ zs[i + 1]? = some b ∧ z = (b - a) / (1 - a) := by
  cases zs with
  | nil => simp [relative] at h
  | cons y zs =>
    have hi : i < zs.length := by
      rw [← relative_length y zs]
      exact (List.getElem?_eq_some_iff.mp h).1
    have h1 : (y :: zs)[i]? = some ((y :: zs)[i]'(by simp; omega)) := List.getElem?_eq_getElem _
    have h2 : (y :: zs)[i + 1]? = some ((y :: zs)[i + 1]'(by simpa using hi)) := List.getElem?_eq_getElem _
    rw [relative_get _ i _ _ h1 h2] at h
    cases h
    exact ⟨_, _, h1, h2, rfl⟩

end

section
variable [Zero K] [One K] [Add K] [Sub K] [Mul K] [Neg K] [Div K] [NatCast K] [LT K] [DecidableLT K] [Zero V] [Add V] [Sub V] [Neg V] [SMul K V]

theorem splitAtMany_log (tx : K → String) {s : Spline V} {ds : List ℕ} (hs : HasShape ds s) {d : ℕ} (hd : d < ds.length) (zs : List K) :
    (splitAtMany tx s zs d).log =
      if Spline.isSorted zs then splits 1 tx d (positions zs) else [⟨.terminating, "Split Plane values must be increasing"⟩] := by
  unfold splitAtMany
  cases hsort : Spline.isSorted zs with
  | false => rfl
  | true =>
    simp only [Bool.not_true, Bool.false_eq_true, if_false, if_true]
    cases zs with
    | nil => rfl
    | cons z0 zs =>
      rw [if_neg (by simp), show rd (z0 :: zs) 0 = .ok z0 from rfl, lift_ok_bind, positions, List.take_succ_cons, List.take_zero,
        List.singleton_append, show z0 :: relative (z0 :: zs) = [z0] ++ relative (z0 :: zs) from rfl, splits_append]
      rcases Spline.splitAt_shape hs hd z0 with ⟨hz, e⟩ | ⟨hz, l, r, e, hl, hr⟩
      · rw [log_bind_error ((out_splitAt tx s z0 d).trans e), splitAt_one, if_neg (by simpa using hz), List.append_nil]
      · rw [log_bind_ok ((out_splitAt tx s z0 d).trans e), splitAt_one, if_pos (by simpa using hz)]
        congr 1
        rw [loopFromS_one]
        obtain ⟨h1, h2, h3⟩ := steps_log (k := 1) (tx := tx) (d := d) (zs := z0 :: zs)
          (f := fun i (r : List (Spline V) × (Spline V × Spline V)) => do
            let z ← lift (rd (z0 :: zs) (1 + i))
            let zp ← lift (rd (z0 :: zs) (1 + i - 1))
            let rel := (z - zp) / (1 - zp)
            let sp ← splitAt tx r.2.2 rel d
            pure (r.1 ++ [sp.1], sp)) (G := fun r => HasShape ds r.2.2) (by
              intro i x z hx hz
              obtain ⟨a, b, ha, hb, rfl⟩ := relative_at hz
              rw [rd_ok (show (z0 :: zs)[1 + i]? = some b by rw [Nat.add_comm]; exact hb), lift_ok_bind,
                rd_ok (show (z0 :: zs)[1 + i - 1]? = some a by rw [Nat.add_sub_cancel_left]; exact ha), lift_ok_bind]
              dsimp only
              rcases Spline.splitAt_shape hx hd ((b - a) / (1 - a)) with ⟨hz, e⟩ | ⟨hz, l, r, e, hl, hr⟩
              · rw [log_bind_error ((out_splitAt tx _ _ d).trans e), splitAt_one, out_bind, out_splitAt, e]
                exact ⟨rfl, fun h => absurd h hz, fun _ => rfl⟩
              · rw [log_bind_ok ((out_splitAt tx _ _ d).trans e), splitAt_one, out_bind, out_splitAt, e]
                exact ⟨by simp, fun _ => ⟨_, rfl, hr⟩, fun h => absurd hz h⟩) (x := ([l], (l, r))) hr zs.length (by rw [relative_length])
        rw [← relative_length z0 zs, List.take_length, relative_length] at h1 h2 h3
        show (loopS zs.length _ _ >>= _).log = _
        by_cases hall : ∀ z ∈ relative (z0 :: zs), 0 < z ∧ z < 1
        · obtain ⟨y, e, _⟩ := h2 hall
          rw [log_bind_ok e, h1]; simp
        · rw [log_bind_error (h3 hall), h1]

theorem rSplitAt_two (tx : K → String) {r : RSpline K V} {ds : List ℕ} (hs : HasRShape ds r) {d : ℕ} (hd : d < ds.length) (z : K) :
    (rSplitAt tx r z d).log = splits 2 tx d [z] := by
  unfold rSplitAt
  rw [splits]
  rcases Spline.splitAt_shape hs.1 hd z with ⟨hz, e⟩ | ⟨hz, l, q, e, hl, hq⟩
  · rw [log_bind_error ((out_splitAt tx _ z d).trans e), log_splitAt, if_neg hz, if_neg hz]
  · rcases Spline.splitAt_shape hs.2 hd z with ⟨hz', -⟩ | ⟨-, l', q', e', hl', hq'⟩
    · exact absurd hz hz'
    · rw [log_bind_ok ((out_splitAt tx _ z d).trans e), log_bind_ok ((out_splitAt tx _ z d).trans e'), log_splitAt, log_splitAt, if_pos hz,
        if_pos hz, RSpline.ofSplines_ok (hl.2.trans hl'.2.symm), lift_ok_bind, RSpline.ofSplines_ok (hq.2.trans hq'.2.symm), lift_ok_bind]
      rfl

theorem rSplitAtMany_log (tx : K → String) {s : RSpline K V} {ds : List ℕ} (hs : HasRShape ds s) {d : ℕ} (hd : d < ds.length) (zs : List K) :
    (rSplitAtMany tx s zs d).log =
      if Spline.isSorted zs then splits 2 tx d (positions zs) else [⟨.terminating, "Split Plane values must be increasing"⟩] := by
  unfold rSplitAtMany
  cases hsort : Spline.isSorted zs with
  | false => rfl
  | true =>
    simp only [Bool.not_true, Bool.false_eq_true, if_false, if_true]
    cases zs with
    | nil => rfl
    | cons z0 zs =>
      rw [if_neg (by simp), show rd (z0 :: zs) 0 = .ok z0 from rfl, lift_ok_bind, positions, List.take_succ_cons, List.take_zero,
        List.singleton_append, show z0 :: relative (z0 :: zs) = [z0] ++ relative (z0 :: zs) from rfl, splits_append]
      rcases RSpline.splitAt_shape hs hd z0 with ⟨hz, e⟩ | ⟨hz, l, r, e, hl, hr⟩
      · rw [log_bind_error ((out_rSplitAt tx s z0 d).trans e), rSplitAt_two tx hs hd, if_neg (by simpa using hz), List.append_nil]
      · rw [log_bind_ok ((out_rSplitAt tx s z0 d).trans e), rSplitAt_two tx hs hd, if_pos (by simpa using hz)]
        congr 1
        rw [loopFromS_one]
        obtain ⟨h1, h2, h3⟩ := steps_log (k := 2) (tx := tx) (d := d) (zs := z0 :: zs)
          (f := fun i (r : List (RSpline K V) × (RSpline K V × RSpline K V)) => do
            let z ← lift (rd (z0 :: zs) (1 + i))
            let zp ← lift (rd (z0 :: zs) (1 + i - 1))
            let rel := (z - zp) / (1 - zp)
            let sp ← rSplitAt tx r.2.2 rel d
            pure (r.1 ++ [sp.1], sp)) (G := fun r => HasRShape ds r.2.2) (by
              intro i x z hx hz
              obtain ⟨a, b, ha, hb, rfl⟩ := relative_at hz
              rw [rd_ok (show (z0 :: zs)[1 + i]? = some b by rw [Nat.add_comm]; exact hb), lift_ok_bind,
                rd_ok (show (z0 :: zs)[1 + i - 1]? = some a by rw [Nat.add_sub_cancel_left]; exact ha), lift_ok_bind]
              dsimp only
              rcases RSpline.splitAt_shape hx hd ((b - a) / (1 - a)) with ⟨hz, e⟩ | ⟨hz, l, r, e, hl, hr⟩
              · rw [log_bind_error ((out_rSplitAt tx _ _ d).trans e), rSplitAt_two tx hx hd, out_bind, out_rSplitAt, e]
                exact ⟨rfl, fun h => absurd h hz, fun _ => rfl⟩
              · rw [log_bind_ok ((out_rSplitAt tx _ _ d).trans e), rSplitAt_two tx hx hd, out_bind, out_rSplitAt, e]
                exact ⟨by simp, fun _ => ⟨_, rfl, hr⟩, fun h => absurd hz h⟩) (x := ([l], (l, r))) hr zs.length (by rw [relative_length])
        rw [← relative_length z0 zs, List.take_length, relative_length] at h1 h2 h3
        show (loopS zs.length _ _ >>= _).log = _
        by_cases hall : ∀ z ∈ relative (z0 :: zs), 0 < z ∧ z < 1
        · obtain ⟨y, e, _⟩ := h2 hall
          rw [log_bind_ok e, h1]; simp
        · rw [log_bind_error (h3 hall), h1]

end

/-! ## Rational splines -/

section
variable [Zero K] [One K] [Add K] [Sub K] [Mul K] [Div K] [NatCast K] [Zero V] [Add V] [SMul K V]

theorem rOrderElevate_log {r r' : RSpline K V} {n d : ℕ} (hr : r.Good n) (h : r.orderElevate d = .ok r') :
    ∃ p, r.num.degrees[d]? = some p ∧ (rOrderElevate r d).log = [elevated d (p + 1), elevated d (p + 1)] := by
  unfold RSpline.orderElevate at h
  obtain ⟨a, ha, h⟩ := bind_eq_ok.mp h
  obtain ⟨b, hb, h⟩ := bind_eq_ok.mp h
  obtain ⟨_, hc, h⟩ := bind_eq_ok.mp h
  obtain ⟨p, hp, _, l1⟩ := log_orderElevate ha
  obtain ⟨q, hq, _, l2⟩ := log_orderElevate hb
  rw [hr.2.2, hq] at hp
  cases hp
  refine ⟨_, by rw [hr.2.2]; exact hq, ?_⟩
  unfold rOrderElevate
  rw [log_bind_ok ((out_orderElevate _ d).trans ha), log_bind_ok ((out_orderElevate _ d).trans hb), l1, l2]
  rw [hc, lift_ok_bind]
  rfl

variable [BEq K]

omit [Zero K] [One K] [Add K] [Sub K] [Mul K] [Div K] [NatCast K] [Zero V] [Add V] [SMul K V] in
theorem eqOp_degrees {a b : Spline K} (h : a.eqOp b = true) : a.degrees = b.degrees := by
  unfold Spline.eqOp at h
  split at h
  · next e => exact e.symm
  · cases h

theorem zipWith_swap {ps qs rs ts : List ℕ} (h1 : ps = rs) (h2 : qs = ts) : List.zipWith (· + ·) ps ts = List.zipWith (· + ·) rs qs := by
  subst h1 h2; rfl

theorem rAddOp_log {cfg : Cfg} {r q r' : RSpline K V} {n : ℕ} (hn : 0 < n) (hr : r.Good n) (hq : q.Good n) (h : r.addOp cfg q = .ok r') :
    (rAddOp cfg r q).log = [] := by
  rw [← out_rAddOp] at h
  revert h
  suffices Logs (rAddOp cfg r q) fun _ l => l = [] from this _
  unfold rAddOp
  split
  · next e =>
    refine .bind (P := fun _ l => l = []) (fun a ha => ?_) fun a ha => .lift fun _ _ => by rw [ha]; rfl
    rw [out_addOp] at ha
    have hd : r.num.degrees = q.num.degrees := by rw [hr.2.2, hq.2.2, eqOp_degrees e]
    rw [(addOp_log (by rw [Spline.dim, Spline.dim, hd]) ha).2, hd, climb_self]; rfl
  · refine .lift_bind fun a ha => .lift_bind fun b hb => .bind (P := fun _ l => l = []) (fun c hc => ?_) fun c hc =>
      .lift_bind fun w _ => .lift fun _ _ => by rw [hc]; rfl
    rw [out_addOp] at hc
    have h1 := (Spline.mulOp_good hn hr.1.2 hq.2.1.2 ha).2
    have h2 := (Spline.mulOp_good hn hr.2.1.2 hq.1.2 hb).2
    have hd : a.degrees = b.degrees := by rw [h1, h2]; exact zipWith_swap hr.2.2 hq.2.2
    rw [(addOp_log (by rw [Spline.dim, Spline.dim, hd]) hc).2, hd, climb_self]; rfl

theorem rAddAssign_log {cfg : Cfg} {r q r' : RSpline K V} {n : ℕ} (hn : 0 < n) (hr : r.Good n) (hq : q.Good n)
    (h : r.addAssign cfg q = .ok r') : (rAddAssign cfg r q).log = [] := by
  rw [← out_rAddAssign] at h
  revert h
  suffices Logs (rAddAssign cfg r q) fun _ l => l = [] from this _
  unfold rAddAssign
  split
  · next e =>
    refine .bind (P := fun _ l => l = []) (fun a ha => ?_) fun a ha => .pure (by rw [ha]; rfl)
    rw [out_addAssign] at ha
    have hd : r.num.degrees = q.num.degrees := by rw [hr.2.2, hq.2.2, eqOp_degrees e]
    rw [(addAssign_log (by rw [Spline.dim, Spline.dim, hd]) ha).2, hd, climb_self]; rfl
  · refine .lift_bind fun a ha => .lift_bind fun b hb => .bind (P := fun _ l => l = []) (fun c hc => ?_) fun c hc =>
      .lift_bind fun w _ => .lift_bind fun _ _ => .pure (by rw [hc]; rfl)
    rw [out_addAssign] at hc
    have h1 := (Spline.mulOp_good hn hr.1.2 hq.2.1.2 ha).2
    have h2 := (Spline.mulOp_good hn hr.2.1.2 hq.1.2 hb).2
    have hd : a.degrees = b.degrees := by rw [h1, h2]; exact zipWith_swap hr.2.2 hq.2.2
    rw [(addAssign_log (by rw [Spline.dim, Spline.dim, hd]) hc).2, hd, climb_self]; rfl

theorem rSubOp_log [Sub V] {cfg : Cfg} {r q r' : RSpline K V} {n : ℕ} (hn : 0 < n) (hr : r.Good n) (hq : q.Good n)
    (h : r.subOp cfg q = .ok r') : (rSubOp cfg r q).log = [] := by
  rw [← out_rSubOp] at h
  revert h
  suffices Logs (rSubOp cfg r q) fun _ l => l = [] from this _
  unfold rSubOp
  split
  · next e =>
    refine .bind (P := fun _ l => l = []) (fun a ha => ?_) fun a ha => .lift fun _ _ => by rw [ha]; rfl
    rw [out_subOp] at ha
    have hd : r.num.degrees = q.num.degrees := by rw [hr.2.2, hq.2.2, eqOp_degrees e]
    rw [(subOp_log (by rw [Spline.dim, Spline.dim, hd]) ha).2.2, hd, climb_self]
  · refine .lift_bind fun a ha => .lift_bind fun b hb => .bind (P := fun _ l => l = []) (fun c hc => ?_) fun c hc =>
      .lift_bind fun w _ => .lift fun _ _ => by rw [hc]; rfl
    rw [out_subOp] at hc
    have h1 := (Spline.mulOp_good hn hr.1.2 hq.2.1.2 ha).2
    have h2 := (Spline.mulOp_good hn hr.2.1.2 hq.1.2 hb).2
    have hd : a.degrees = b.degrees := by rw [h1, h2]; exact zipWith_swap hr.2.2 hq.2.2
    rw [(subOp_log (by rw [Spline.dim, Spline.dim, hd]) hc).2.2, hd, climb_self]

theorem rSubAssign_log [Sub V] {cfg : Cfg} {r q r' : RSpline K V} {n : ℕ} (hn : 0 < n) (hr : r.Good n) (hq : q.Good n)
    (h : r.subAssign cfg q = .ok r') : (rSubAssign cfg r q).log = [] := by
  rw [← out_rSubAssign] at h
  revert h
  suffices Logs (rSubAssign cfg r q) fun _ l => l = [] from this _
  unfold rSubAssign
  split
  · next e =>
    refine .bind (P := fun _ l => l = []) (fun a ha => ?_) fun a ha => .pure (by rw [ha]; rfl)
    rw [out_subAssign] at ha
    have hd : r.num.degrees = q.num.degrees := by rw [hr.2.2, hq.2.2, eqOp_degrees e]
    rw [(subAssign_log (by rw [Spline.dim, Spline.dim, hd]) ha).2, hd, climb_self]; rfl
  · refine .lift_bind fun a ha => .lift_bind fun b hb => .bind (P := fun _ l => l = []) (fun c hc => ?_) fun c hc =>
      .lift_bind fun w _ => .lift_bind fun _ _ => .pure (by rw [hc]; rfl)
    rw [out_subAssign] at hc
    have h1 := (Spline.mulOp_good hn hr.1.2 hq.2.1.2 ha).2
    have h2 := (Spline.mulOp_good hn hr.2.1.2 hq.1.2 hb).2
    have hd : a.degrees = b.degrees := by rw [h1, h2]; exact zipWith_swap hr.2.2 hq.2.2
    rw [(subAssign_log (by rw [Spline.dim, Spline.dim, hd]) hc).2, hd, climb_self]; rfl

end

/-! ## Derivatives of rational splines -/

theorem derivativeSpline_degrees [One K] [Neg K] [Mul K] [NatCast K] [Zero V] [Add V] [SMul K V] {cfg : Cfg} {s r : Spline V} {orders : List ℕ}
    (h : Spline.derivativeSpline K cfg s orders = .ok r) :
    r.degrees = s.degrees.mapIdx fun d p => if orders.getD d 0 = 0 then p else sub64 p (orders.getD d 0) := by
  unfold Spline.derivativeSpline at h
  obtain ⟨q, h1, h⟩ := bind_eq_ok.mp h
  obtain ⟨e, h2, h⟩ := bind_eq_ok.mp h
  obtain ⟨c, _, h⟩ := bind_eq_ok.mp h
  simp only [pure_eq_ok, Except.ok.injEq] at h
  have a2 : e.degrees = q.1 := by
    unfold Spline.ofDegrees64 at h2
    simp only [] at h2
    obtain ⟨_, _, h2⟩ := bind_eq_ok.mp h2
    obtain ⟨_, _, h2⟩ := bind_eq_ok.mp h2
    simp only [pure_eq_ok, Except.ok.injEq] at h2
    rw [← h2]
  have a1 : q.1 = s.degrees.mapIdx fun d p => if d < s.dim then (if orders.getD d 0 = 0 then p else sub64 p (orders.getD d 0)) else p := by
    refine loop_ok (P := fun k (r : List ℕ × List V) => r.1 = s.degrees.mapIdx fun d p =>
      if d < k then (if orders.getD d 0 = 0 then p else sub64 p (orders.getD d 0)) else p) h1 (by
        apply List.ext_getElem?
        intro i
        rw [List.getElem?_mapIdx]
        cases s.degrees[i]? <;> simp) ?_
    intro k hk a b ha hf
    obtain ⟨o, ho, hf⟩ := bind_eq_ok.mp hf
    rw [rd_ok_iff] at ho
    have ho' : orders.getD k 0 = o := by simp [ho]
    split at hf
    · next h0 =>
      simp only [pure_eq_ok, Except.ok.injEq] at hf
      subst hf
      rw [ha]
      apply List.ext_getElem?
      intro i
      rw [List.getElem?_mapIdx, List.getElem?_mapIdx]
      by_cases hik : i = k
      · subst hik
        have h0' : orders.getD i 0 = 0 := ho'.trans h0
        simp only [h0', if_true, ite_self]
      · have : i < k ↔ i < k + 1 := by omega
        simp only [this]
    · next h0 =>
      obtain ⟨nd, hnd, hf⟩ := bind_eq_ok.mp hf
      obtain ⟨ndl, h3, hf⟩ := bind_eq_ok.mp hf
      obtain ⟨_, _, hf⟩ := bind_eq_ok.mp hf
      obtain ⟨_, _, hf⟩ := bind_eq_ok.mp hf
      obtain ⟨_, _, hf⟩ := bind_eq_ok.mp hf
      simp only [pure_eq_ok, Except.ok.injEq] at hf
      subst hf
      obtain ⟨hkl, rfl⟩ := wr_eq h3
      rw [rd_ok_iff, ha, List.getElem?_mapIdx] at hnd
      apply List.ext_getElem?
      intro i
      rw [List.getElem?_set, List.getElem?_mapIdx]
      by_cases hik : k = i
      · subst hik
        rw [if_pos rfl, if_pos hkl]
        simp only [Option.map_eq_some_iff] at hnd
        obtain ⟨p, hp, hnd⟩ := hnd
        simp at hnd
        subst hnd
        rw [hp]
        simp only [Option.map_some, Nat.lt_succ_self, if_true, ho', if_neg h0]
      · rw [if_neg hik, ha, List.getElem?_mapIdx]
        have : i < k ↔ i < k + 1 := by omega
        simp only [this]
  rw [← h]
  show e.degrees = _
  rw [a2, a1]
  apply List.ext_getElem?
  intro i
  rw [List.getElem?_mapIdx, List.getElem?_mapIdx]
  by_cases hi : i < s.degrees.length
  · simp [Spline.dim, hi]
  · rw [List.getElem?_eq_none (by omega)]; rfl

section
variable [Zero K] [One K] [Add K] [Sub K] [Mul K] [Neg K] [Div K] [NatCast K] [Zero V] [Add V] [Sub V] [SMul K V]

theorem rDerivativeStep_log {cfg : Cfg} {r : RSpline K V} {n d : ℕ} (hn : 0 < n) (hr : r.Good n) :
    Logs (rDerivativeStep cfg r d) fun r' l =>
      r'.Good n ∧ r'.num.degrees = r.num.degrees.map (2 * ·) ∧ l = quotientRule n d (r.num.degrees.getD d 0) := by
  intro r' h
  rw [out_rDerivativeStep] at h
  unfold RSpline.derivativeStep at h
  obtain ⟨ord, h0, h⟩ := bind_eq_ok.mp h
  obtain ⟨du, h1, h⟩ := bind_eq_ok.mp h
  obtain ⟨a, h2, h⟩ := bind_eq_ok.mp h
  obtain ⟨dw, h3, h⟩ := bind_eq_ok.mp h
  obtain ⟨b, h4, h⟩ := bind_eq_ok.mp h
  obtain ⟨c, h5, h⟩ := bind_eq_ok.mp h
  obtain ⟨e, h6, h⟩ := bind_eq_ok.mp h
  obtain ⟨w, h7, h⟩ := bind_eq_ok.mp h
  have hdim : r.dim = n := hr.1.2
  have hne : ord ≠ [] := by
    intro hc
    have := wr_len h0
    rw [hc, List.length_replicate, hdim] at this
    simp at this; omega
  obtain ⟨hd0, hord⟩ := wr_eq h0
  rw [hdim] at hord
  have g2 := Spline.mulOp_good hn ((Spline.derivativeSpline_dim h1).trans hr.1.2) hr.2.1.2 h2
  have g4 := Spline.mulOp_good hn ((Spline.derivativeSpline_dim h3).trans hr.2.1.2) hr.1.2 h4
  have g5 := Spline.subOp_good hn g2.1.2 h5
  have g7 := Spline.mulOp_good hn hr.2.1.2 hr.2.1.2 h7
  have hab : a.degrees = b.degrees := by
    rw [g2.2, g4.2, derivativeSpline_degrees h1, derivativeSpline_degrees h3, hr.2.2]
  have gr := RSpline.ofSplines_good (Spline.orderElevate_good g5 h6) g7.1 h
  have hr' : r' = ⟨e, w⟩ := by
    unfold RSpline.ofSplines at h
    obtain ⟨_, _, h⟩ := bind_eq_ok.mp h
    simpa [eq_comm] using h
  obtain ⟨p, hp, he, l6⟩ := log_orderElevate h6
  have hw : w.degrees = r.num.degrees.map (2 * ·) := by
    rw [g7.2, hr.2.2]
    apply List.ext_getElem?
    intro i
    rw [List.getElem?_zipWith, List.getElem?_map]
    cases r.wt.degrees[i]? with
    | none => rfl
    | some x => simp; omega
  have hew : e.degrees = w.degrees := by have := gr.2.2; rw [hr'] at this; exact this
  refine ⟨gr, ?_, ?_⟩
  · rw [hr']; exact hew.trans hw
  · unfold rDerivativeStep
    rw [h0, lift_ok_bind, log_bind_ok ((out_derivativeSpline cfg _ hne).trans h1), h2, lift_ok_bind,
      log_bind_ok ((out_derivativeSpline cfg _ hne).trans h3), h4, lift_ok_bind, log_bind_ok ((out_subOp cfg _ _).trans h5),
      log_bind_ok ((out_orderElevate _ d).trans h6), h7, lift_ok_bind, log_lift, log_derivativeSpline cfg _ hne, h1,
      log_derivativeSpline cfg _ hne, h3, l6, (subOp_log (by rw [Spline.dim, Spline.dim, hab]) h5).2.2, hab, climb_self, hord]
    have hp2 : p + 1 = 2 * r.num.degrees.getD d 0 := by
      have hd : d < c.degrees.length := (List.getElem?_eq_some_iff.mp hp).1
      have h8 : e.degrees[d]? = some (p + 1) := by rw [he, List.getElem?_set_self hd]
      rw [hew, hw, List.getElem?_map] at h8
      cases hx : r.num.degrees[d]? with
      | none => rw [hx] at h8; cases h8
      | some x => rw [hx] at h8; simp at h8; simp [hx]; omega
    rw [hp2]
    simp [quotientRule, Except.isOk, Except.toBool]

/-- the messages of rounds in the directions `ds` -/
def roundsLog (n : ℕ) (ps ds : List ℕ) : List Msg := ds.zipIdx.flatMap fun x => quotientRule n x.1 (2 ^ x.2 * ps.getD x.1 0)

omit [Zero K] [One K] [Add K] [Sub K] [Mul K] [Neg K] [Div K] [NatCast K] [Zero V] [Add V] [Sub V] [SMul K V] in
theorem roundsLog_snoc (n : ℕ) (ps ds : List ℕ) (d : ℕ) :
    roundsLog n ps (ds ++ [d]) = roundsLog n ps ds ++ quotientRule n d (2 ^ ds.length * ps.getD d 0) := by
  simp [roundsLog, List.zipIdx_append]

theorem rDerivativeSpline_log {cfg : Cfg} {r r' : RSpline K V} {n : ℕ} {orders : List ℕ} (hn : 0 < n) (hr : r.Good n) (ho : orders.length = n)
    (h : r.derivativeSpline cfg orders = .ok r') :
    r'.num.degrees = r.num.degrees.map (2 ^ orders.sum * ·) ∧ (rDerivativeSpline cfg r orders).log = roundsLog n r.num.degrees (rounds orders) := by
  rw [← out_rDerivativeSpline] at h
  have hsum : (rounds orders).length = orders.sum := by
    unfold rounds
    rw [List.length_flatMap]
    congr 1
    apply List.ext_getElem?
    intro i
    rw [List.getElem?_map]
    by_cases hi : i < orders.length
    · rw [List.getElem?_range hi]; simp [hi]
    · rw [List.getElem?_eq_none (by simpa using hi), List.getElem?_eq_none (by omega)]; rfl
  rw [← hsum]
  revert h
  let done (k : ℕ) : List ℕ := (List.range k).flatMap fun d => List.replicate (orders.getD d 0) d
  let I (ds : List ℕ) (q : RSpline K V) (l : List Msg) : Prop :=
    q.Good n ∧ q.num.degrees = r.num.degrees.map (2 ^ ds.length * ·) ∧ l = roundsLog n r.num.degrees ds
  suffices Logs (rDerivativeSpline cfg r orders) (I (done n)) from fun h => by
    have := this _ h
    rw [← ho] at this
    exact ⟨this.2.1, this.2.2⟩
  have hdim : r.dim = n := hr.1.2
  unfold rDerivativeSpline
  rw [hdim]
  refine .loopS (I := fun k => I (done k)) ⟨hr, by simp [done], rfl⟩ ?_
  intro k hk q l hI
  refine .lift_bind fun o hko => ?_
  rw [rd_ok_iff] at hko
  have hdone : done (k + 1) = done k ++ List.replicate o k := by
    simp only [done, List.range_succ, List.flatMap_append, List.flatMap_singleton]
    simp [hko]
  rw [hdone]
  refine .loopS (I := fun j q' l' => I (done k ++ List.replicate j k) q' (l ++ l')) (by simpa using hI) ?_
  intro j _ q' l' hI' q'' h''
  obtain ⟨g1, g2, g3⟩ := hI'
  obtain ⟨f1, f2, f3⟩ := rDerivativeStep_log (d := k) hn g1 q'' h''
  have happ : done k ++ List.replicate (j + 1) k = (done k ++ List.replicate j k) ++ [k] := by
    rw [List.replicate_succ', List.append_assoc]
  refine ⟨f1, ?_, ?_⟩
  · rw [f2, g2, List.map_map, happ]
    apply List.map_congr_left
    intro p _
    rw [List.length_append (bs := [k]), List.length_singleton, pow_succ]
    simp only [Function.comp]
    ring
  · rw [happ, roundsLog_snoc, ← List.append_assoc, g3, f3, g2]
    congr 2
    cases hx : r.num.degrees[k]? <;> simp [hx]

end

/-! ## Compositions -/

section
variable [Zero K] [One K] [Add K] [Sub K] [Mul K] [Neg K] [Div K] [NatCast K]

theorem composeBases_silent {cfg : Cfg} {ds : List ℕ} {n : ℕ} {e : ℕ → Said (Spline K)} {i : Spline K → Said (Spline K)}
    (he : ∀ d, Logs (e d) fun x l => l = [] ∧ Logs (i x) fun _ l => l = []) : Logs (composeBases cfg ds n e i) fun _ l => l = [] := by
  unfold composeBases
  refine .loopS (I := fun _ _ l => l = []) rfl ?_
  intro d _ s l hl
  subst hl
  refine .lift_bind fun p _ => .bind (he d) fun x hx => .bind hx.2 fun y hy => .lift_bind fun bs _ => .lift fun _ _ => ?_
  rw [hx.1, hy]; rfl

theorem composeNumerator_silent [Zero V] [Add V] [SMul K V] {cfg : Cfg} {s : Spline V} {ds : List ℕ} {e : ℕ → Said (Spline K)}
    {i : Spline K → Said (Spline K)} (he : ∀ d, Logs (e d) fun x l => l = [] ∧ Logs (i x) fun _ l => l = []) :
    Logs (composeNumerator cfg s ds e i) fun _ l => l = [] := by
  unfold composeNumerator
  exact .lift_bind fun _ _ => .bind (composeBases_silent he) fun _ h => .lift fun _ _ => by rw [h]; rfl

theorem composeNumeratorSensitivity_silent {cfg : Cfg} {s : Spline V} {ds : List ℕ} {e : ℕ → Said (Spline K)}
    {i : Spline K → Said (Spline K)} (he : ∀ d, Logs (e d) fun x l => l = [] ∧ Logs (i x) fun _ l => l = []) :
    Logs (composeNumeratorSensitivity cfg s ds e i) fun _ l => l = [] := by
  unfold composeNumeratorSensitivity
  exact .bind (composeBases_silent he) fun _ h => .lift fun _ _ => by rw [h]; rfl

variable [Coords K W]

omit [One K] [Add K] [Sub K] [Mul K] [Neg K] [Div K] [NatCast K] in
theorem extractDimension_silent (b : Bool) (s : Spline W) (d : ℕ) : Logs (extractDimension K b s d) fun x l => l = [] ∧ s.extractDimension K d = .ok x := by
  unfold extractDimension
  split
  · exact .lift fun _ h => ⟨rfl, h⟩
  · exact .terminate

theorem composeNumeratorRational_silent [Zero V] [Add V] [SMul K V] {cfg : Cfg} {b : Bool} {s : Spline V} {inner : RSpline K W} {n : ℕ}
    (hn : 0 < n) (hi : inner.Good n) : Logs (composeNumeratorRational cfg b s inner) fun _ l => l = [] := by
  unfold composeNumeratorRational
  refine composeNumerator_silent fun d x hx => ?_
  obtain ⟨h1, h2⟩ := extractDimension_silent b inner.num d x hx
  refine ⟨h1, fun y hy => ?_⟩
  rw [out_subOp] at hy
  have hd : inner.wt.degrees = x.degrees := by rw [(Spline.extractDimension_good hn hi.1.2 h2).2, hi.2.2]
  rw [(subOp_log (by rw [Spline.dim, Spline.dim, hd]) hy).2.2, hd, climb_self]

theorem composeNumeratorSensitivityRational_silent {cfg : Cfg} {b : Bool} {s : Spline V} {inner : RSpline K W} {n : ℕ}
    (hn : 0 < n) (hi : inner.Good n) : Logs (composeNumeratorSensitivityRational cfg b s inner) fun _ l => l = [] := by
  unfold composeNumeratorSensitivityRational
  refine composeNumeratorSensitivity_silent fun d x hx => ?_
  obtain ⟨h1, h2⟩ := extractDimension_silent b inner.num d x hx
  refine ⟨h1, fun y hy => ?_⟩
  rw [out_subOp] at hy
  have hd : inner.wt.degrees = x.degrees := by rw [(Spline.extractDimension_good hn hi.1.2 h2).2, hi.2.2]
  rw [(subOp_log (by rw [Spline.dim, Spline.dim, hd]) hy).2.2, hd, climb_self]

variable [LT K] [DecidableLT K]

omit [Add K] [Sub K] [Mul K] [Neg K] [Div K] [NatCast K] in
theorem fitsIntoUnitCube_silent (s : Spline W) : Logs (fitsIntoUnitCube K s) fun _ l => l = [] := by
  unfold fitsIntoUnitCube maximumCorner minimumCorner
  split
  · exact .bind (P := fun _ _ => True) .terminate fun _ _ => by rintro _ ⟨⟩
  · exact .lift_bind fun _ _ => .lift_bind fun _ _ => .pure rfl

theorem compose_silent [Zero V] [Add V] [SMul K V] (cfg : Cfg) (b : Bool) (s : Spline V) (i : Spline W) :
    Logs (compose K cfg b s i) fun _ l => l = [] := by
  unfold compose
  refine .bind (fitsIntoUnitCube_silent i) fun f hf => ?_
  rw [hf]
  split
  · exact .terminate
  · exact composeNumerator_silent fun d x hx => ⟨(extractDimension_silent b i d x hx).1, .lift fun _ _ => rfl⟩

theorem composeSensitivity_silent (cfg : Cfg) (b : Bool) (s : Spline V) (i : Spline W) :
    Logs (composeSensitivity K cfg b s i) fun _ l => l = [] := by
  unfold composeSensitivity
  refine .bind (fitsIntoUnitCube_silent i) fun f hf => ?_
  rw [hf]
  split
  · exact .terminate
  · exact composeNumeratorSensitivity_silent fun d x hx => ⟨(extractDimension_silent b i d x hx).1, .lift fun _ _ => rfl⟩

theorem rCompose_silent [Zero V] [Add V] [SMul K V] (cfg : Cfg) (b : Bool) (r : RSpline K V) (i : Spline W) :
    Logs (rCompose cfg b r i) fun _ l => l = [] := by
  unfold rCompose
  exact .bind (compose_silent cfg b r.num i) fun _ h => .bind (compose_silent cfg b r.wt i) fun _ h' => .lift fun _ _ => by rw [h, h']; rfl

theorem rComposeSensitivity_silent (cfg : Cfg) (b : Bool) (r : RSpline K V) (i : Spline W) :
    Logs (rComposeSensitivity cfg b r i) fun _ l => l = [] := by
  unfold rComposeSensitivity
  exact .bind (composeSensitivity_silent cfg b r.num i) fun _ h => .bind (compose_silent cfg b r.wt i) fun _ h' => .lift fun _ _ => by
    rw [h, h']; rfl

omit [LT K] [DecidableLT K] in
theorem rComposeRational_silent [Zero V] [Add V] [SMul K V] {cfg : Cfg} {b : Bool} {r : RSpline K V} {i : RSpline K W} {n : ℕ} (hn : 0 < n)
    (hi : i.Good n) : Logs (rComposeRational cfg b r i) fun _ l => l = [] := by
  unfold rComposeRational
  exact .bind (composeNumeratorRational_silent hn hi) fun _ h => .bind (composeNumeratorRational_silent hn hi) fun _ h' =>
    .lift fun _ _ => by rw [h, h']; rfl

omit [LT K] [DecidableLT K] in
theorem rComposeSensitivityRational_silent {cfg : Cfg} {b : Bool} {r : RSpline K V} {i : RSpline K W} {n : ℕ} (hn : 0 < n)
    (hi : i.Good n) : Logs (rComposeSensitivityRational cfg b r i) fun _ l => l = [] := by
  unfold rComposeSensitivityRational
  exact .bind (composeNumeratorSensitivityRational_silent hn hi) fun _ h => .bind (composeNumeratorRational_silent hn hi) fun _ h' =>
    .lift fun _ _ => by rw [h, h']; rfl

variable [BEq K] [ScalarDiv K W]

theorem rFitsIntoUnitCube_silent (s : RSpline K W) : Logs (rFitsIntoUnitCube s) fun _ l => l = [] := by
  unfold rFitsIntoUnitCube rMaximumCorner rMinimumCorner
  split
  · exact .bind (P := fun _ _ => True) .terminate fun _ _ => by rintro _ ⟨⟩
  · exact .lift_bind fun _ _ => .lift_bind fun _ _ => .pure rfl

theorem composeRational_log [Zero V] [Add V] [SMul K V] {cfg : Cfg} {b : Bool} {s : Spline V} {i : RSpline K W} {n : ℕ} (hn : 0 < n)
    (hi : i.Good n) : Logs (composeRational cfg b s i) fun _ l =>
      l = if s.degrees.sum = 0 then [⟨.error, "Raising to 0 is inefficient. Please revisit"⟩] else [] := by
  unfold composeRational
  refine .bind (rFitsIntoUnitCube_silent i) fun f hf => ?_
  rw [hf]
  split
  · exact .terminate
  · refine .bind (composeNumeratorRational_silent hn hi) fun _ h => .bind (P := fun _ _ => True) (fun _ _ => trivial) fun _ _ => .lift fun _ _ => ?_
    rw [h]
    unfold composeDenominator
    rw [log_raisePower]
    simp

theorem composeSensitivityRational_log {cfg : Cfg} {b : Bool} {s : Spline V} {i : RSpline K W} {n : ℕ} (hn : 0 < n)
    (hi : i.Good n) : Logs (composeSensitivityRational cfg b s i) fun _ l =>
      l = if s.degrees.sum = 0 then [⟨.error, "Raising to 0 is inefficient. Please revisit"⟩] else [] := by
  unfold composeSensitivityRational
  refine .bind (rFitsIntoUnitCube_silent i) fun f hf => ?_
  rw [hf]
  split
  · exact .terminate
  · refine .bind (composeNumeratorSensitivityRational_silent hn hi) fun _ h => .bind (P := fun _ _ => True) (fun _ _ => trivial) fun _ _ =>
      .lift fun _ _ => ?_
    rw [h]
    unfold composeDenominator
    rw [log_raisePower]
    simp

end
end Messages
end Bezman
