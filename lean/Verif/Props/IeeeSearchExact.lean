import Verif.Props.IeeeExact

/-!
# Property C105: without rounding errors and with enough range the searches on the machine are the
exact searches

The evaluators and the reductions of Eigen are arbitrary; they have to be exact for finite arguments
once the range is large enough.
-/

set_option linter.unusedSectionVars false

namespace NS.Ieee

open Outcome Geom

variable {K ι : Type} [Field K] [LinearOrder K] [IsStrictOrderedRing K] [FloorRing K] [Fintype ι]
  [Geom K (ι → K)]

/-- Reductions that are exact in the absence of rounding errors and overflow. -/
structure ExactOps (E : Format K → EigenOps K ι) : Prop where
  dot : ∀ x y : ι → K, Eventually fun A => (E A).dot (lift x) (lift y) = .fin (dot x y)
  norm : ∀ x : ι → K, Eventually fun A => (E A).norm (lift x) = .fin (norm x)
  denom : ∀ r d2 d1 : ι → K, Eventually fun A =>
    (E A).denom (lift r) (lift d2) (lift d1) = .fin (Geom.dot r d2 - sqNorm d1)
  entry : ∀ x y r z : ι → K, Eventually fun A =>
    (E A).entry (lift x) (lift y) (lift r) (lift z) = .fin (Geom.dot x y + Geom.dot r z)
  det : ∀ a b c d : K, Eventually fun A =>
    (E A).det (.fin a) (.fin b) (.fin c) (.fin d) = .fin (a * d - b * c)
  solve : ∀ a b c d k1 k2 : K, 0 < a * d - b * c → Eventually fun A =>
    (E A).solve (.fin a) (.fin b) (.fin c) (.fin d) (.fin k1) (.fin k2) =
      (.fin ((d * k1 - b * k2) / (a * d - b * c)), .fin ((a * k2 - c * k1) / (a * d - b * c)))

/-- Evaluators of a curve that are exact in the absence of rounding errors and overflow. -/
structure ExactCurve (C : Format K → CurveFn (Num K) (ι → Num K)) (c : CurveFn K (ι → K)) : Prop where
  ev : ∀ t, Eventually fun A => (C A).ev (.fin t) = lift <$> c.ev t
  d1 : ∀ t, Eventually fun A => (C A).d1 (.fin t) = lift <$> c.d1 t
  d2 : ∀ t, Eventually fun A => (C A).d2 (.fin t) = lift <$> c.d2 t

/-- Evaluators of a patch that are exact in the absence of rounding errors and overflow. -/
structure ExactPatch (S : Format K → PatchFn (Num K) (ι → Num K)) (s : PatchFn K (ι → K)) : Prop where
  ev : ∀ u v, Eventually fun A => (S A).ev (.fin u) (.fin v) = lift <$> s.ev u v
  du : ∀ u v, Eventually fun A => (S A).du (.fin u) (.fin v) = lift <$> s.du u v
  dv : ∀ u v, Eventually fun A => (S A).dv (.fin u) (.fin v) = lift <$> s.dv u v
  duu : ∀ u v, Eventually fun A => (S A).duu (.fin u) (.fin v) = lift <$> s.duu u v
  dvv : ∀ u v, Eventually fun A => (S A).dvv (.fin u) (.fin v) = lift <$> s.dvv u v
  duv : ∀ u v, Eventually fun A => (S A).duv (.fin u) (.fin v) = lift <$> s.duv u v

theorem Settles.of_result {α β : Type} {e : β → α} {f : Format K → Outcome α} {r : Outcome β}
    (h : Eventually fun A => f A = e <$> r) : Settles e f fun _ => r :=
  ⟨r, h.mono fun _ _ h => ⟨h, rfl⟩⟩

theorem eventually_subPoint (x y : ι → K) :
    Eventually fun A : Format K => subPoint A (lift x) (lift y) = lift (x - y) :=
  (Eventually.all fun i => Eventually.sub (x i) (y i)).mono fun _ _ h => funext h

theorem bind_assoc' {α β γ : Type} (x : Outcome α) (f : α → Outcome β) (g : β → Outcome γ) :
    (x >>= f >>= g) = x >>= fun a => f a >>= g := by cases x <;> rfl

/-! ### Curves -/

section Curve

variable {E : Format K → EigenOps K ι} (hE : ExactOps E)
  {C : Format K → CurveFn (Num K) (ι → Num K)} {c : CurveFn K (ι → K)} (hC : ExactCurve C c)
  (p : ι → K)

section

include hE hC

theorem settles_curveDist (t : K) :
    Settles Num.fin (fun A => curveDist A (E A) (C A) (lift p) (.fin t))
      fun _ => c.ev t >>= fun q => ok (sqNorm (p - q)) := by
  unfold curveDist
  refine (Settles.of_result (hC.ev t)).bind fun q => Settles.ok' _ ?_
  refine ((eventually_subPoint p q).and (hE.dot (p - q) (p - q))).mono ?_
  rintro B hB ⟨h1, h2⟩
  rw [h1, h2]
  rfl

theorem settles_newtonCurve {tol : K} (htol : 0 < tol) (lo hi : K) : ∀ (n : ℕ) (t prevT prevErr : K),
    Settles Num.fin (fun A => newtonCurve A (curveStep A (E A) (C A) (lift p)) (.fin tol) (.fin lo)
        (.fin hi) n (.fin t) (.fin prevT) (.fin prevErr))
      fun _ => NS.newtonCurve c p tol lo hi n t prevT prevErr
  | 0, t, _, _ => .const Num.fin (ok t)
  | n + 1, t, prevT, prevErr => by
    unfold newtonCurve NS.newtonCurve curveStep
    simp only [bind_assoc', pure_eq, ok_bind]
    refine (Settles.of_result (hC.ev t)).bind fun d0 => ?_
    refine (Settles.of_result (hC.d1 t)).bind fun d1 => ?_
    refine (Settles.of_result (hC.d2 t)).bind fun d2 => ?_
    set f : K := Geom.dot (p - d0) d1 with hf
    set df : K := Geom.dot (p - d0) d2 - sqNorm d1 with hdf
    have hev := (eventually_subPoint p d0).and ((hE.dot (p - d0) d1).and (hE.denom (p - d0) d2 d1))
    have hev : Eventually fun A => (E A).dot (subPoint A (lift p) (lift d0)) (lift d1) = .fin f ∧
        (E A).denom (subPoint A (lift p) (lift d0)) (lift d2) (lift d1) = .fin df :=
      hev.mono fun B hB h => by rw [h.1]; exact h.2
    by_cases h1 : |f| < tol
    · simp only [h1, if_true]
      refine Settles.ok' t (hev.mono ?_)
      rintro B hB ⟨e1, e2⟩
      simp only [e1, Num.abs, Num.lt, h1, decide_true, if_true]
    simp only [h1, if_false]
    by_cases h2 : prevErr > 0 ∧ |f| > prevErr
    · simp only [h2, if_true, and_self]
      refine Settles.ok' prevT (hev.mono ?_)
      rintro B hB ⟨e1, e2⟩
      have h2' : 0 < prevErr ∧ prevErr < |f| := h2
      simp [e1, Num.abs, Num.lt, h1, h2']
    rw [if_neg h2]
    have h2' : (decide (0 < prevErr) && decide (prevErr < |f|)) = false := by
      rw [← Bool.decide_and]; exact decide_eq_false h2
    have h1' : decide (|f| < tol) = false := decide_eq_false h1
    by_cases h3 : df = 0
    · rw [if_pos h3]
      have hne : f ≠ 0 := fun h => h1 (by rw [h, abs_zero]; exact htol)
      rw [if_neg hne]
      split_ifs with h4
      · refine Settles.ok' lo (hev.mono ?_)
        rintro B hB ⟨e1, e2⟩
        have e3 : decide (f < 0) = false := decide_eq_false (not_lt.2 h4.le)
        simp only [e1, e2, h3, Num.abs, Num.lt, h1', h2', Num.div, if_true, if_neg hne, e3, Format.round,
          Format.sub, Num.neg, Num.add, Num.le, Bool.not_false, Bool.false_eq_true, if_false]
      · refine Settles.ok' hi (hev.mono ?_)
        rintro B hB ⟨e1, e2⟩
        have e3 : decide (f < 0) = true := decide_eq_true (lt_of_le_of_ne (not_lt.1 h4) hne)
        simp only [e1, e2, h3, Num.abs, Num.lt, h1', h2', Num.div, if_true, if_neg hne, e3, Format.round,
          Format.sub, Num.neg, Num.add, Num.le, Bool.not_true, Bool.not_false, Bool.false_eq_true,
          if_false]
    rw [if_neg h3]
    have hev2 := hev.and ((Eventually.div f h3).and (Eventually.sub t (f / df)))
    split_ifs with h4 h5
    · refine Settles.ok' lo (hev2.mono ?_)
      rintro B hB ⟨⟨e1, e2⟩, e3, e4⟩
      simp only [e1, e2, e3, e4, Num.abs, Num.lt, h1', h2', Num.le, decide_eq_true h4,
        Bool.false_eq_true, if_false, if_true]
    · refine Settles.ok' hi (hev2.mono ?_)
      rintro B hB ⟨⟨e1, e2⟩, e3, e4⟩
      simp only [e1, e2, e3, e4, Num.abs, Num.lt, h1', h2', Num.le, decide_eq_false h4,
        decide_eq_true (p := hi ≤ _) h5, Bool.false_eq_true, if_false, if_true]
    · refine (settles_newtonCurve htol lo hi n (t - f / df) t |f|).congr (hev2.mono ?_)
      rintro B hB ⟨⟨e1, e2⟩, e3, e4⟩
      refine ⟨?_, rfl⟩
      simp only [e1, e2, e3, e4, Num.abs, Num.lt, h1', h2', Num.le, decide_eq_false h4,
        decide_eq_false (p := hi ≤ _) h5, Bool.false_eq_true, if_false]
      rfl

omit hE hC in
theorem eventually_searchParam (f : Fuse) (lo hi : K) {num : ℕ} (hn : 0 < num) (i : ℕ) :
    Eventually fun A => searchParam A f (.fin lo) (.fin hi) num i =
      .fin (lo + (i : K) / (num : K) * (hi - lo)) := by
  have hne : (num : K) ≠ 0 := Nat.cast_ne_zero.2 hn.ne'
  refine ((Eventually.round (i : K)).and ((Eventually.round (num : K)).and ((Eventually.div (i : K) hne).and
    ((Eventually.sub hi lo).and (Eventually.combine ((i : K) / num) (hi - lo) 1 lo))))).mono ?_
  rintro B hB ⟨h1, h2, h3, h4, h5⟩
  unfold searchParam
  rw [h1, h2, h3, h4, h5 f, one_mul, add_comm]

theorem settles_closestSample (f : ℕ → Fuse) (lo hi : K) {num : ℕ} (hn : 0 < num) :
    Settles (Prod.map Num.fin Num.fin)
      (fun A => closestSample A f (curveDist A (E A) (C A) (lift p)) num (.fin lo) (.fin hi))
      fun A => NS.closestSample A.big c p num lo hi := by
  unfold closestSample NS.closestSample
  have step : ∀ i (s : K × K), Settles (Prod.map Num.fin Num.fin)
      (fun A => do
        let t := searchParam A (f i) (.fin lo) (.fin hi) num i
        let d ← curveDist A (E A) (C A) (lift p) t
        pure (if d.lt (Prod.map Num.fin Num.fin s).1 then (d, t) else Prod.map Num.fin Num.fin s))
      (fun _ => do
        let t := lo + (i : K) / (num : K) * (hi - lo)
        let q ← c.ev t
        pure (if sqNorm (p - q) < s.1 then (sqNorm (p - q), t) else s)) := by
    intro i s
    have h := (settles_curveDist hE hC p (lo + (i : K) / (num : K) * (hi - lo))).bind
      (e' := Prod.map Num.fin Num.fin)
      (F := fun _ d => ok (if d.lt (Prod.map Num.fin Num.fin s).1 then
        (d, Num.fin (lo + (i : K) / (num : K) * (hi - lo))) else Prod.map Num.fin Num.fin s))
      (G := fun _ d => ok (if d < s.1 then (d, lo + (i : K) / (num : K) * (hi - lo)) else s))
      fun d => Settles.ok' _ (.of fun _ => by
        simp only [Num.lt, Prod.map, decide_eq_true_eq]
        split_ifs <;> rfl)
    refine h.congr ((eventually_searchParam (f i) lo hi hn i).mono fun B hB e => ⟨?_, ?_⟩)
    · rw [e]
      rfl
    · rw [bind_assoc']
      rfl
  have first : Settles (Prod.map Num.fin Num.fin)
      (fun A => do
        let t := searchParam A (f 0) (.fin lo) (.fin hi) num 0
        let d ← curveDist A (E A) (C A) (lift p) t
        pure (if d.lt (.fin A.big) then (d, t) else (.fin A.big, .fin 0)))
      (fun A => do
        let t := lo + ((0 : ℕ) : K) / (num : K) * (hi - lo)
        let q ← c.ev t
        pure (if sqNorm (p - q) < A.big then (sqNorm (p - q), t) else (A.big, 0))) := by
    have h := (settles_curveDist hE hC p (lo + ((0 : ℕ) : K) / (num : K) * (hi - lo))).bind
      (e' := Prod.map Num.fin Num.fin)
      (F := fun A d => ok (if d.lt (.fin A.big) then
        (d, Num.fin (lo + ((0 : ℕ) : K) / (num : K) * (hi - lo))) else (.fin A.big, .fin 0)))
      (G := fun A d => ok (if d < A.big then (d, lo + ((0 : ℕ) : K) / (num : K) * (hi - lo)) else (A.big, 0)))
      fun d => ⟨ok (d, lo + ((0 : ℕ) : K) / (num : K) * (hi - lo)), (Eventually.lt d).mono fun B hB h => ⟨by
        beta_reduce
        rw [show (Num.fin d).lt (.fin (exactFormat B hB).big) = true from decide_eq_true h, if_pos rfl]
        rfl, by
        beta_reduce
        rw [if_pos h]⟩⟩
    refine h.congr ((eventually_searchParam (f 0) lo hi hn 0).mono fun B hB e => ⟨?_, ?_⟩)
    · rw [e]
      rfl
    · rw [bind_assoc']
      rfl
  have all : ∀ n, Settles (Prod.map Num.fin Num.fin)
      (fun A => loop (n + 1) (fun i s => do
        let t := searchParam A (f i) (.fin lo) (.fin hi) num i
        let d ← curveDist A (E A) (C A) (lift p) t
        pure (if d.lt s.1 then (d, t) else s)) (.fin A.big, .fin 0))
      (fun A => loop (n + 1) (fun i s => do
        let t := lo + (i : K) / (num : K) * (hi - lo)
        let q ← c.ev t
        let dist : K := sqNorm (p - q)
        pure (if dist < s.1 then (dist, t) else s)) (A.big, 0)) := by
    intro n
    induction n with
    | zero => exact first
    | succ n ih => exact ih.bind fun s => step (n + 1) s
  exact all num

theorem settles_curveSearch (f : ℕ → ℕ → Fuse) {tol : K} (htol : 0 < tol) (num : ℕ) :
    ∀ (level : ℕ) (lo hi : K),
    Settles Num.fin (fun A => curveInverse A (E A) f (.fin tol) (C A) (lift p) num level (.fin lo)
      (.fin hi)) fun A => NS.approxInverse A.big tol c p num level lo hi
  | 0, lo, hi => by
    unfold curveInverse curveSearch NS.approxInverse newtonRaphson
    by_cases hn : num > 0
    · refine (Settles.assert (.of fun _ => Iff.rfl)).bind fun _ => ?_
      exact (settles_closestSample hE hC p (f 0) lo hi hn).bind fun s =>
        settles_newtonCurve hE hC p htol lo hi 10 s.2 s.2 (-1)
    · rw [assert_false hn]
      exact ⟨ub, .of fun _ => ⟨rfl, rfl⟩⟩
  | level + 1, lo, hi => by
    unfold curveInverse curveSearch NS.approxInverse
    by_cases hn : num > 0
    · refine (Settles.assert (.of fun _ => Iff.rfl)).bind fun _ => ?_
      have hne : (num : K) ≠ 0 := Nat.cast_ne_zero.2 hn.ne'
      refine (settles_closestSample hE hC p (f (level + 1)) lo hi hn).bind fun s => ?_
      set delta := (hi - lo) / (num : K)
      refine (settles_curveSearch f htol num level (min (max (s.2 - delta) lo) hi)
        (min (max (s.2 + delta) lo) hi)).congr ?_
      refine ((Eventually.sub hi lo).and ((Eventually.round (num : K)).and
        ((Eventually.div (hi - lo) hne).and ((Eventually.sub s.2 delta).and
        (Eventually.add s.2 delta))))).mono ?_
      rintro B hB ⟨h1, h2, h3, h4, h5⟩
      refine ⟨?_, rfl⟩
      simp only [Prod.map, h1, h2, h3]
      rw [h4, h5]
      simp only [stdMax_fin, stdMin_fin]
      rfl
    · rw [assert_false hn]
      exact ⟨ub, .of fun _ => ⟨rfl, rfl⟩⟩

/-- C105: with exact evaluators, exact reductions and enough range, the closest point search on a curve
returns the result of the exact search, which then does not depend on the range. -/
theorem C105_exact_curve (f : ℕ → ℕ → Fuse) {tol : K} (htol : 0 < tol) (num level : ℕ) (lo hi : K) :
    ∃ r : Outcome K, Eventually fun A =>
      curveInverse A (E A) f (.fin tol) (C A) (lift p) num level (.fin lo) (.fin hi) = .fin <$> r ∧
      NS.approxInverse A.big tol c p num level lo hi = r :=
  settles_curveSearch hE hC p f htol num level lo hi

end

/-- C105: the same for a Bézier curve, periodic or not. -/
theorem C105_exact_bezier {E : Format K → EigenOps K ι} (hE : ExactOps E) (F : ℕ → ℕ → ι → Fuse)
    (c : Bezier (ι → K)) (p : ι → K) (f : ℕ → ℕ → Fuse) {tol : K} (htol : 0 < tol) (num level : ℕ)
    (lo hi : K) :
    ∃ r : Outcome K, Eventually fun A =>
      curveInverse A (E A) f (.fin tol) (bezierFn A F (liftCurve c)) (lift p) num level (.fin lo)
        (.fin hi) = .fin <$> r ∧
      NS.approxInverse A.big tol ⟨c.evaluate, c.evaluateDerivative, c.evaluate2ndDerivative⟩ p num level
        lo hi = r :=
  C105_exact_curve (C := fun A => bezierFn A F (liftCurve c))
    (c := ⟨c.evaluate, c.evaluateDerivative, c.evaluate2ndDerivative⟩) hE
    ⟨fun t => (C104_exact_bezier F c t).1, fun t => (C104_exact_bezier F c t).2.1,
      fun t => (C104_exact_bezier F c t).2.2⟩ p f htol num level lo hi

end Curve

/-! ### Patches -/

/-- The parameters as numbers. -/
def liftPair (x : K × K) : Num K × Num K := (.fin x.1, .fin x.2)

/-- The state of the sampling as numbers. -/
def liftBest (b : PatchBase.Best K) : PatchBase.Best (Num K) :=
  ⟨.fin b.dist, liftPair b.uv, .fin b.dist2, liftPair b.uv2⟩

theorem update_lift (b : PatchBase.Best K) (d : K) (uv : K × K) :
    update (liftBest b) (.fin d) (liftPair uv) = liftBest (b.update d uv) := by
  unfold update PatchBase.Best.update liftBest
  simp only [Num.lt, decide_eq_true_eq]
  split_ifs <;> rfl

theorem eventually_gridParam (lo hi : K) {num : ℕ} (hn : 0 < num) (i : ℕ) :
    Eventually fun A => gridParam A num (.fin lo) (.fin hi) i =
      .fin (PatchBase.samplePos num lo hi i) := by
  have hne : (num : K) ≠ 0 := Nat.cast_ne_zero.2 hn.ne'
  refine ((Eventually.round (i : K)).and ((Eventually.round (num : K)).and
    ((Eventually.sub hi lo).and ((Eventually.mul (i : K) (hi - lo)).and
    ((Eventually.div ((i : K) * (hi - lo)) hne).and
    (Eventually.add ((i : K) * (hi - lo) / num) lo)))))).mono ?_
  rintro B hB ⟨h1, h2, h3, h4, h5, h6⟩
  unfold gridParam PatchBase.samplePos
  split_ifs
  · rfl
  · rw [h1, h2, h3, h4, h5, h6]

theorem eventually_onOpposite (tol uR vR : K) (a b : K × K) : Eventually fun A =>
    onOpposite A (.fin tol) (.fin uR) (.fin vR) (liftPair a) (liftPair b) =
      PatchBase.onOpposite tol uR vR a b := by
  refine ((Eventually.sub a.1 b.1).and ((Eventually.sub a.2 b.2).and
    ((Eventually.sub |a.1 - b.1| uR).and (Eventually.sub |a.2 - b.2| vR)))).mono ?_
  rintro B hB ⟨h1, h2, h3, h4⟩
  unfold onOpposite PatchBase.onOpposite liftPair
  simp only [h1, h2, Num.abs, h3, h4, Num.lt]

section Patch

variable {E : Format K → EigenOps K ι} (hE : ExactOps E)
  {S : Format K → PatchFn (Num K) (ι → Num K)} {s : PatchFn K (ι → K)} (hS : ExactPatch S s)
  (p : ι → K)

include hE hS

theorem settles_patchDist (u v : K) :
    Settles Num.fin (fun A => patchDist A (E A) (S A) (lift p) (.fin u) (.fin v))
      fun _ => s.ev u v >>= fun q => ok (sqNorm (p - q)) := by
  unfold patchDist
  refine (Settles.of_result (hS.ev u v)).bind fun q => Settles.ok' _ ?_
  refine ((eventually_subPoint p q).and (hE.dot (p - q) (p - q))).mono ?_
  rintro B hB ⟨h1, h2⟩
  rw [h1, h2]
  rfl

/-- A sample in a settled state. -/
theorem settles_sample (minU maxU minV maxV : K) {nu nv : ℕ} (hu : 0 < nu) (hv : 0 < nv) (i j : ℕ)
    (b : PatchBase.Best K) :
    Settles liftBest (fun A => do
        let u := gridParam A nu (.fin minU) (.fin maxU) i
        let v := gridParam A nv (.fin minV) (.fin maxV) j
        let d ← patchDist A (E A) (S A) (lift p) u v
        pure (update (liftBest b) d (u, v)))
      (fun _ => do
        let u := PatchBase.samplePos nu minU maxU i
        let v := PatchBase.samplePos nv minV maxV j
        let q ← s.ev u v
        pure (b.update (sqNorm (p - q)) (u, v))) := by
  set u := PatchBase.samplePos nu minU maxU i with hu'
  set v := PatchBase.samplePos nv minV maxV j with hv'
  have h := (settles_patchDist hE hS p u v).bind (e' := liftBest)
    (F := fun _ d => ok (update (liftBest b) d (.fin u, .fin v)))
    (G := fun _ d => ok (b.update d (u, v)))
    fun d => Settles.ok' _ (.of fun _ => by rw [← update_lift]; rfl)
  refine h.congr (((eventually_gridParam minU maxU hu i).and
    (eventually_gridParam minV maxV hv j)).mono fun B hB e => ⟨?_, ?_⟩)
  · rw [e.1, e.2]
    rfl
  · rw [bind_assoc']
    rfl

/-- The first two samples replace both initial distances. -/
theorem settles_two (minU maxU minV maxV : K) {nu nv : ℕ} (hu : 0 < nu) (hv : 0 < nv) :
    Settles liftBest (fun A => loop 2 (fun j b => do
        let u := gridParam A nu (.fin minU) (.fin maxU) 0
        let v := gridParam A nv (.fin minV) (.fin maxV) j
        let d ← patchDist A (E A) (S A) (lift p) u v
        pure (update b d (u, v))) ⟨.fin A.big, (.fin minU, .fin minV), .fin A.big, (.fin minU, .fin minV)⟩)
      (fun A => loop 2 (fun j b => do
        let u := PatchBase.samplePos nu minU maxU 0
        let v := PatchBase.samplePos nv minV maxV j
        let q ← s.ev u v
        pure (b.update (sqNorm (p - q)) (u, v))) ⟨A.big, (minU, minV), A.big, (minU, minV)⟩) := by
  set u := PatchBase.samplePos nu minU maxU 0 with hu'
  set v := fun j => PatchBase.samplePos nv minV maxV j with hv'
  have h := (settles_patchDist hE hS p u (v 0)).bind (e' := liftBest)
    (F := fun A d0 => patchDist A (E A) (S A) (lift p) (.fin u) (.fin (v 1)) >>= fun d1 =>
      ok (update (update ⟨.fin A.big, (.fin minU, .fin minV), .fin A.big, (.fin minU, .fin minV)⟩ d0
        (.fin u, .fin (v 0))) d1 (.fin u, .fin (v 1))))
    (G := fun A d0 => (s.ev u (v 1) >>= fun q => ok (sqNorm (p - q))) >>= fun d1 =>
      ok (((⟨A.big, (minU, minV), A.big, (minU, minV)⟩ : PatchBase.Best K).update d0
        (u, v 0)).update d1 (u, v 1)))
    fun d0 => (settles_patchDist hE hS p u (v 1)).bind fun d1 =>
      ⟨ok (if d1 < d0 then ⟨d1, (u, v 1), d0, (u, v 0)⟩ else ⟨d0, (u, v 0), d1, (u, v 1)⟩),
        ((Eventually.lt d0).and (Eventually.lt d1)).mono fun B hB h => by
          obtain ⟨h0, h1⟩ := h
          unfold update PatchBase.Best.update
          simp only [Num.lt, decide_eq_true_eq, h0, h1, if_true]
          refine ⟨?_, trivial⟩
          split_ifs <;> rfl⟩
  refine h.congr (((eventually_gridParam minU maxU hu 0).and
    ((eventually_gridParam minV maxV hv 0).and (eventually_gridParam minV maxV hv 1))).mono
      fun B hB e => ⟨?_, ?_⟩)
  · simp only [loop_succ, loop_zero, ok_bind, e.1, e.2.1, e.2.2, pure_eq, bind_assoc']
    rfl
  · simp only [loop_succ, loop_zero, ok_bind, pure_eq, bind_assoc']
    rfl

theorem settles_bestSamples (minU maxU minV maxV : K) {nu nv : ℕ} (hu : 0 < nu) (hv : 0 < nv) :
    Settles liftBest (fun A => bestSamples A (patchDist A (E A) (S A) (lift p)) nu nv (.fin minU)
        (.fin maxU) (.fin minV) (.fin maxV))
      fun A => PatchBase.bestSamples A.big s p nu nv minU maxU minV maxV := by
  unfold bestSamples PatchBase.bestSamples
  have row : ∀ m, Settles liftBest (fun A => loop (m + 2) (fun j b => do
        let u := gridParam A nu (.fin minU) (.fin maxU) 0
        let v := gridParam A nv (.fin minV) (.fin maxV) j
        let d ← patchDist A (E A) (S A) (lift p) u v
        pure (update b d (u, v))) ⟨.fin A.big, (.fin minU, .fin minV), .fin A.big, (.fin minU, .fin minV)⟩)
      (fun A => loop (m + 2) (fun j b => do
        let u := PatchBase.samplePos nu minU maxU 0
        let v := PatchBase.samplePos nv minV maxV j
        let q ← s.ev u v
        pure (b.update (sqNorm (p - q)) (u, v))) ⟨A.big, (minU, minV), A.big, (minU, minV)⟩) := by
    intro m
    induction m with
    | zero => exact settles_two hE hS p minU maxU minV maxV hu hv
    | succ m ih => exact ih.bind fun b => settles_sample hE hS p minU maxU minV maxV hu hv 0 (m + 2) b
  obtain ⟨m, rfl⟩ : ∃ m, nv = m + 1 := ⟨nv - 1, by omega⟩
  have all : ∀ n, Settles liftBest (fun A => loop (n + 1) (fun i b => loop (m + 1 + 1) (fun j b => do
        let u := gridParam A nu (.fin minU) (.fin maxU) i
        let v := gridParam A (m + 1) (.fin minV) (.fin maxV) j
        let d ← patchDist A (E A) (S A) (lift p) u v
        pure (update b d (u, v))) b)
          ⟨.fin A.big, (.fin minU, .fin minV), .fin A.big, (.fin minU, .fin minV)⟩)
      (fun A => loop (n + 1) (fun i b => loop (m + 1 + 1) (fun j b => do
        let u := PatchBase.samplePos nu minU maxU i
        let v := PatchBase.samplePos (m + 1) minV maxV j
        let q ← s.ev u v
        pure (b.update (sqNorm (p - q)) (u, v))) b) ⟨A.big, (minU, minV), A.big, (minU, minV)⟩) := by
    intro n
    induction n with
    | zero => exact row m
    | succ n ih =>
      exact ih.bind fun b => Settles.loop
        (fun j b => settles_sample hE hS p minU maxU minV maxV hu hv (n + 1) j b) (m + 1 + 1) b
  exact all nu

variable [LawfulGeom K (ι → K)]

theorem settles_patchSearch (tol uR vR : K) {nu nv : ℕ} (hu : 0 < nu) (hv : 0 < nv) :
    ∀ (level : ℕ) (minU maxU minV maxV : K),
    Settles liftPair (fun A => patchSearch A (.fin tol) (.fin (1 / 1000)) (.fin uR) (.fin vR)
        (patchDist A (E A) (S A) (lift p)) nu nv level (.fin minU) (.fin maxU) (.fin minV) (.fin maxV))
      fun A => PatchBase.approxInverse A.big tol uR vR s p nu nv level minU maxU minV maxV
  | 0, minU, maxU, minV, maxV => by
    unfold patchSearch PatchBase.approxInverse
    exact (settles_bestSamples hE hS p minU maxU minV maxV hu hv).bind fun b =>
      Settles.ok' b.uv (.of fun _ => rfl)
  | level + 1, minU, maxU, minV, maxV => by
    unfold patchSearch PatchBase.approxInverse
    refine (settles_bestSamples hE hS p minU maxU minV maxV hu hv).bind fun b => ?_
    rw [assert_true ⟨hu, hv⟩]
    simp only [ok_bind]
    have hnu : (nu : K) ≠ 0 := Nat.cast_ne_zero.2 hu.ne'
    have hnv : (nv : K) ≠ 0 := Nat.cast_ne_zero.2 hv.ne'
    set delU := (maxU - minU) / (nu : K) with hdelU
    set delV := (maxV - minV) / (nv : K) with hdelV
    have hdel : Eventually fun A : Format K =>
        A.round (Num.div (A.sub (.fin maxU) (.fin minU)) (A.round (.fin (nu : K)))) = .fin delU ∧
        A.round (Num.div (A.sub (.fin maxV) (.fin minV)) (A.round (.fin (nv : K)))) = .fin delV := by
      refine ((Eventually.sub maxU minU).and ((Eventually.sub maxV minV).and
        ((Eventually.round (nu : K)).and ((Eventually.round (nv : K)).and
        ((Eventually.div (maxU - minU) hnu).and (Eventually.div (maxV - minV) hnv)))))).mono ?_
      rintro B hB ⟨h1, h2, h3, h4, h5, h6⟩
      rw [h1, h2, h3, h4, h5, h6]
      exact ⟨rfl, rfl⟩
    set subI : Format K → Num K × Num K → Outcome (Num K × Num K) := fun A x =>
      patchSearch A (.fin tol) (.fin (1 / 1000)) (.fin uR) (.fin vR)
        (patchDist A (E A) (S A) (lift p)) nu nv level
        (Num.stdMax (A.sub x.1 (A.round (Num.div (A.sub (.fin maxU) (.fin minU))
          (A.round (.fin (nu : K)))))) (.fin minU))
        (Num.stdMin (A.round (Num.add x.1 (A.round (Num.div (A.sub (.fin maxU) (.fin minU))
          (A.round (.fin (nu : K))))))) (.fin maxU))
        (Num.stdMax (A.sub x.2 (A.round (Num.div (A.sub (.fin maxV) (.fin minV))
          (A.round (.fin (nv : K)))))) (.fin minV))
        (Num.stdMin (A.round (Num.add x.2 (A.round (Num.div (A.sub (.fin maxV) (.fin minV))
          (A.round (.fin (nv : K))))))) (.fin maxV)) with hsubI
    set subE : Format K → K × K → Outcome (K × K) := fun A x =>
      PatchBase.approxInverse A.big tol uR vR s p nu nv level (max (x.1 - delU) minU)
        (min (x.1 + delU) maxU) (max (x.2 - delV) minV) (min (x.2 + delV) maxV) with hsubE
    have hsub : ∀ x : K × K, Settles liftPair (fun A => subI A (liftPair x)) (fun A => subE A x) := by
      intro x
      refine (settles_patchSearch tol uR vR hu hv level (max (x.1 - delU) minU)
        (min (x.1 + delU) maxU) (max (x.2 - delV) minV) (min (x.2 + delV) maxV)).congr ?_
      refine (hdel.and ((Eventually.sub x.1 delU).and ((Eventually.add x.1 delU).and
        ((Eventually.sub x.2 delV).and (Eventually.add x.2 delV))))).mono ?_
      rintro B hB ⟨⟨h1, h2⟩, h3, h4, h5, h6⟩
      refine ⟨?_, rfl⟩
      rw [hsubI]
      beta_reduce
      rw [h1, h2]
      simp only [liftPair, h3, h4, h5, h6, stdMax_fin, stdMin_fin]
    have hcond : Eventually fun A : Format K =>
        ((A.round (Num.mul (liftBest b).dist (.fin (1 / 1000)))).lt
            (Num.abs (A.sub (liftBest b).dist (liftBest b).dist2)) ||
          !onOpposite A (.fin tol) (.fin uR) (.fin vR) (liftBest b).uv (liftBest b).uv2) =
        decide (|b.dist - b.dist2| > b.dist * (1 / 1000) ∨
          PatchBase.onOpposite tol uR vR b.uv b.uv2 = false) := by
      refine ((Eventually.mul b.dist (1 / 1000)).and ((Eventually.sub b.dist b.dist2).and
        (eventually_onOpposite tol uR vR b.uv b.uv2))).mono ?_
      rintro B hB ⟨h1, h2, h3⟩
      simp only [liftBest, h1, h2, h3, Num.abs, Num.lt, gt_iff_lt, Bool.decide_or]
      cases PatchBase.onOpposite tol uR vR b.uv b.uv2 <;> simp
    by_cases h : |b.dist - b.dist2| > b.dist * (1 / 1000) ∨
        PatchBase.onOpposite tol uR vR b.uv b.uv2 = false
    · rw [decide_eq_true h] at hcond
      simp only [if_pos h]
      refine (hsub b.uv).congr (hcond.mono fun B hB e => ⟨?_, rfl⟩)
      rw [e, if_pos rfl]
      rfl
    · rw [decide_eq_false h] at hcond
      simp only [if_neg h]
      refine Settles.congr (f' := fun A => subI A (liftPair b.uv) >>= fun c1 =>
          subI A (liftPair b.uv2) >>= fun c2 =>
          patchDist A (E A) (S A) (lift p) c1.1 c1.2 >>= fun d1 =>
          patchDist A (E A) (S A) (lift p) c2.1 c2.2 >>= fun d2 =>
          ok (if d1.lt d2 then c1 else c2))
        (g' := fun A => subE A b.uv >>= fun c1 => subE A b.uv2 >>= fun c2 =>
          (s.ev c1.1 c1.2 >>= fun q => ok (sqNorm (p - q))) >>= fun d1 =>
          (s.ev c2.1 c2.2 >>= fun q => ok (sqNorm (p - q))) >>= fun d2 =>
          ok (if (d1 : K) < d2 then c1 else c2)) ?_ (hcond.mono fun B hB e => ⟨?_, ?_⟩)
      · refine (hsub b.uv).bind fun c1 => (hsub b.uv2).bind fun c2 =>
          (settles_patchDist hE hS p c1.1 c1.2).bind fun d1 =>
          (settles_patchDist hE hS p c2.1 c2.2).bind fun d2 => Settles.ok' _ (.of fun _ => ?_)
        simp only [Num.lt, decide_eq_true_eq]
        split_ifs <;> rfl
      · rw [e, if_neg Bool.false_ne_true]
        rfl
      · simp only [bind_assoc', ok_bind, pure_eq, sqNorm_sub_comm p]
        rfl

/-- A distance the next one can be compared with. -/
def Comparable (tol : K) (D : Format K → K) : Prop := ∀ x, 0 ≤ x → ∃ b1 b2 : Bool, Eventually fun A =>
  (Num.abs (A.sub (.fin x) (.fin (D A)))).lt (.fin tol) = b1 ∧ decide (|x - D A| < tol) = b1 ∧
    Num.lt (.fin (D A)) (.fin x) = b2 ∧ decide (x > D A) = b2

omit [LawfulGeom K (ι → K)] hE hS in
theorem comparable_const (tol y : K) : Comparable tol fun _ : Format K => y := fun x _ =>
  ⟨decide (|x - y| < tol), decide (x > y), (Eventually.sub x y).mono fun B hB h => by
    rw [h]; exact ⟨rfl, rfl, rfl, rfl⟩⟩

omit [LawfulGeom K (ι → K)] hE hS in
theorem comparable_big (tol : K) : Comparable tol fun A : Format K => A.big := fun x hx =>
  ⟨false, false, (Eventually.lt (x + |tol|)).mono fun B hB h => by
    have h' : x + |tol| < B := h
    have h0 := abs_nonneg tol
    have e : |x - B| = B - x := by rw [abs_sub_comm, abs_of_nonneg (by linarith)]
    have h1 : ¬ |x - B| < tol := by rw [e]; linarith [le_abs_self tol]
    have h2 : ¬ B < x := by linarith
    have h3 : (exactFormat B hB).sub (.fin x) (.fin B) = .fin (x - B) := by
      rw [Format.sub_fin_fin]
      exact if_pos (show |x - B| ≤ B by rw [e]; linarith)
    refine ⟨?_, decide_eq_false h1, decide_eq_false h2, decide_eq_false h2⟩
    change (Num.abs ((exactFormat B hB).sub (.fin x) (.fin B))).lt (.fin tol) = false
    rw [h3]
    exact decide_eq_false h1⟩

/-- The result of the Newton iteration as numbers. -/
def liftFound (x : (K × K) × Bool) : (Num K × Num K) × Bool := (liftPair x.1, x.2)

omit [LawfulGeom K (ι → K)] hE hS in
theorem clampStep_lift (lo hi x : K) :
    clampStep (.fin lo) (.fin hi) (.fin x) = Num.fin (PatchBase.clampStep lo hi x) := by
  unfold clampStep PatchBase.clampStep
  simp only [Num.lt, decide_eq_true_eq, gt_iff_lt]
  split_ifs <;> simp_all

theorem settles_newtonPatch (tol minU maxU minV maxV : K) :
    ∀ (n : ℕ) (u v : K) (prev : K × K) (D : Format K → K), Comparable tol D →
    Settles liftFound (fun A => newtonPatch A (E A) (S A) (lift p) (.fin tol) (.fin minU) (.fin maxU)
        (.fin minV) (.fin maxV) n (.fin u) (.fin v) (liftPair prev) (.fin (D A)))
      fun A => PatchBase.newtonPatch s p tol minU maxU minV maxV n u v prev (D A)
  | 0, u, v, _, _, _ => .const liftFound (ok ((u, v), true))
  | n + 1, u, v, prev, D, hD => by
    unfold newtonPatch PatchBase.newtonPatch
    refine (Settles.of_result (hS.ev u v)).bind fun q => ?_
    obtain ⟨b1, b2, hb⟩ := hD (Geom.norm (q - p)) (LawfulGeom.norm_nonneg _)
    have hr := (eventually_subPoint q p).and (hE.norm (q - p))
    have hr : Eventually fun A => subPoint A (lift q) (lift p) = lift (q - p) ∧
        (E A).norm (subPoint A (lift q) (lift p)) = .fin (Geom.norm (q - p)) :=
      hr.mono fun B hB h => ⟨h.1, by rw [h.1]; exact h.2⟩
    have hrb := hr.and hb
    set dist : K := Geom.norm (q - p) with hdist
    by_cases h1 : dist < tol ∨ b1 = true
    · refine (Settles.const liftFound (ok ((u, v), true))).congr (hrb.mono ?_)
      rintro B hB ⟨⟨e1, e2⟩, e3, e4, e5, e6⟩
      constructor
      · simp only [e2, e3]
        rw [show (Num.fin dist).lt (.fin tol) = decide (dist < tol) from rfl,
          if_pos (by simpa using h1)]
        rfl
      · rw [if_pos]
        rcases h1 with h1 | h1
        · exact Or.inl h1
        · exact Or.inr (of_decide_eq_true (e4.trans h1))
    have h1' : (decide (dist < tol) || b1) = false := by
      rw [not_or] at h1
      rw [decide_eq_false h1.1, Bool.eq_false_iff.2 h1.2]
      rfl
    by_cases h2 : b2 = true
    · refine (Settles.const liftFound (ok (prev, false))).congr (hrb.mono ?_)
      rintro B hB ⟨⟨e1, e2⟩, e3, e4, e5, e6⟩
      constructor
      · simp only [e2, e3, e5, h2]
        rw [show (Num.fin dist).lt (.fin tol) = decide (dist < tol) from rfl, h1']
        rfl
      · rw [if_neg, if_pos (of_decide_eq_true (e6.trans h2))]
        rintro (h | h)
        · exact h1 (Or.inl h)
        · exact h1 (Or.inr (e4.symm.trans (decide_eq_true h)))
    refine Settles.congr (f' := fun A => do
        let su ← (S A).du (.fin u) (.fin v)
        let sv ← (S A).dv (.fin u) (.fin v)
        if (Num.abs ((E A).dot su (lift (q - p)))).lt (.fin tol) &&
            (Num.abs ((E A).dot sv (lift (q - p)))).lt (.fin tol) then ok ((.fin u, .fin v), true)
        else do
          let suu ← (S A).duu (.fin u) (.fin v)
          let svv ← (S A).dvv (.fin u) (.fin v)
          let suv ← (S A).duv (.fin u) (.fin v)
          let a := (E A).entry su su (lift (q - p)) suu
          let b := (E A).entry su sv (lift (q - p)) suv
          let c := (E A).entry sv su (lift (q - p)) suv
          let d := (E A).entry sv sv (lift (q - p)) svv
          if ((E A).det a b c d).le (.fin 0) then ok ((.fin u, .fin v), false)
          else
            let δ := (E A).solve a b c d (Num.neg ((E A).dot (lift (q - p)) su))
              (Num.neg ((E A).dot (lift (q - p)) sv))
            newtonPatch A (E A) (S A) (lift p) (.fin tol) (.fin minU) (.fin maxU) (.fin minV) (.fin maxV) n
              (clampStep (.fin minU) (.fin maxU) (A.round (Num.add (.fin u) δ.1)))
              (clampStep (.fin minV) (.fin maxV) (A.round (Num.add (.fin v) δ.2))) (.fin u, .fin v)
              (.fin dist))
      (g' := fun _ => do
        let su ← s.du u v
        let sv ← s.dv u v
        if |(dot su (q - p) : K)| < tol ∧ |(dot sv (q - p) : K)| < tol then ok ((u, v), true)
        else do
          let suu ← s.duu u v
          let svv ← s.dvv u v
          let suv ← s.duv u v
          let a : K := sqNorm su + dot (q - p) suu
          let b : K := dot su sv + dot (q - p) suv
          let c : K := dot sv su + dot (q - p) suv
          let d : K := sqNorm sv + dot (q - p) svv
          let det := a * d - b * c
          if det ≤ 0 then ok ((u, v), false)
          else
            let k1 : K := -dot (q - p) su
            let k2 : K := -dot (q - p) sv
            PatchBase.newtonPatch s p tol minU maxU minV maxV n
              (PatchBase.clampStep minU maxU (u + (d * k1 - b * k2) / det))
              (PatchBase.clampStep minV maxV (v + (a * k2 - c * k1) / det)) (u, v) dist) ?_ (hrb.mono ?_)
    swap
    · rintro B hB ⟨⟨e1, e2⟩, e3, e4, e5, e6⟩
      constructor
      · simp only [e2, e3, e5, h2]
        rw [show (Num.fin dist).lt (.fin tol) = decide (dist < tol) from rfl, h1']
        simp only [Bool.false_eq_true, if_false, e1]
      · rw [if_neg, if_neg (fun h => h2 (e6.symm.trans (decide_eq_true h)))]
        rintro (h | h)
        · exact h1 (Or.inl h)
        · exact h1 (Or.inr (e4.symm.trans (decide_eq_true h)))
    refine (Settles.of_result (hS.du u v)).bind fun su => ?_
    refine (Settles.of_result (hS.dv u v)).bind fun sv => ?_
    have hg := (hE.dot su (q - p)).and (hE.dot sv (q - p))
    by_cases h3 : |(dot su (q - p) : K)| < tol ∧ |(dot sv (q - p) : K)| < tol
    · rw [if_pos h3]
      refine Settles.ok' ((u, v), true) (hg.mono ?_)
      rintro B hB ⟨e1, e2⟩
      simp only [e1, e2, Num.abs, Num.lt, h3.1, h3.2, decide_true, Bool.and_self, if_true]
      rfl
    rw [if_neg h3]
    have h3' : (decide (|(dot su (q - p) : K)| < tol) && decide (|(dot sv (q - p) : K)| < tol)) = false := by
      rw [← Bool.decide_and]; exact decide_eq_false h3
    refine Settles.congr (f' := fun A => do
        let suu ← (S A).duu (.fin u) (.fin v)
        let svv ← (S A).dvv (.fin u) (.fin v)
        let suv ← (S A).duv (.fin u) (.fin v)
        let a := (E A).entry (lift su) (lift su) (lift (q - p)) suu
        let b := (E A).entry (lift su) (lift sv) (lift (q - p)) suv
        let c := (E A).entry (lift sv) (lift su) (lift (q - p)) suv
        let d := (E A).entry (lift sv) (lift sv) (lift (q - p)) svv
        if ((E A).det a b c d).le (.fin 0) then ok ((.fin u, .fin v), false)
        else
          let δ := (E A).solve a b c d (Num.neg ((E A).dot (lift (q - p)) (lift su)))
            (Num.neg ((E A).dot (lift (q - p)) (lift sv)))
          newtonPatch A (E A) (S A) (lift p) (.fin tol) (.fin minU) (.fin maxU) (.fin minV) (.fin maxV) n
            (clampStep (.fin minU) (.fin maxU) (A.round (Num.add (.fin u) δ.1)))
            (clampStep (.fin minV) (.fin maxV) (A.round (Num.add (.fin v) δ.2))) (.fin u, .fin v)
            (.fin dist)) (g' := fun _ => _) ?_ (hg.mono fun B hB e => ⟨?_, rfl⟩)
    swap
    · obtain ⟨e1, e2⟩ := e
      simp only [e1, e2, Num.abs, Num.lt, h3', Bool.false_eq_true, if_false]
    refine (Settles.of_result (hS.duu u v)).bind fun suu => ?_
    refine (Settles.of_result (hS.dvv u v)).bind fun svv => ?_
    refine (Settles.of_result (hS.duv u v)).bind fun suv => ?_
    set a : K := sqNorm su + dot (q - p) suu with ha
    set b : K := dot su sv + dot (q - p) suv with hb'
    set c : K := dot sv su + dot (q - p) suv with hc
    set d : K := sqNorm sv + dot (q - p) svv with hd
    have hent : Eventually fun A =>
        (E A).entry (lift su) (lift su) (lift (q - p)) (lift suu) = .fin a ∧
        (E A).entry (lift su) (lift sv) (lift (q - p)) (lift suv) = .fin b ∧
        (E A).entry (lift sv) (lift su) (lift (q - p)) (lift suv) = .fin c ∧
        (E A).entry (lift sv) (lift sv) (lift (q - p)) (lift svv) = .fin d ∧
        (E A).det (.fin a) (.fin b) (.fin c) (.fin d) = .fin (a * d - b * c) :=
      (hE.entry su su (q - p) suu).and ((hE.entry su sv (q - p) suv).and
        ((hE.entry sv su (q - p) suv).and ((hE.entry sv sv (q - p) svv).and (hE.det a b c d))))
    by_cases h4 : a * d - b * c ≤ 0
    · simp only [if_pos h4]
      refine Settles.ok' ((u, v), false) (hent.mono ?_)
      rintro B hB ⟨e1, e2, e3, e4, e5⟩
      simp only [e1, e2, e3, e4, e5, Num.le, h4, decide_true, if_true]
      rfl
    simp only [if_neg h4]
    set k1 : K := -dot (q - p) su with hk1
    set k2 : K := -dot (q - p) sv with hk2
    refine (settles_newtonPatch tol minU maxU minV maxV n
      (PatchBase.clampStep minU maxU (u + (d * k1 - b * k2) / (a * d - b * c)))
      (PatchBase.clampStep minV maxV (v + (a * k2 - c * k1) / (a * d - b * c))) (u, v) (fun _ => dist)
      (comparable_const tol dist)).congr ?_
    refine (hent.and ((hE.dot (q - p) su).and ((hE.dot (q - p) sv).and
      ((hE.solve a b c d k1 k2 (not_le.1 h4)).and
      ((Eventually.add u ((d * k1 - b * k2) / (a * d - b * c))).and
      (Eventually.add v ((a * k2 - c * k1) / (a * d - b * c)))))))).mono ?_
    rintro B hB ⟨⟨e1, e2, e3, e4, e5⟩, e6, e7, e8, e9, e10⟩
    refine ⟨?_, rfl⟩
    simp only [e1, e2, e3, e4, e5, Num.le, decide_eq_false h4, Bool.false_eq_true, if_false, e6, e7,
      Num.neg]
    rw [← hk1, ← hk2, e8]
    simp only [e9, e10, clampStep_lift]
    rfl

theorem settles_inverseFrom (u v minU maxU minV maxV : K) (iters : ℕ) (tol : K) :
    Settles liftFound (fun A => inverseFrom A (E A) (S A) (lift p) (.fin u) (.fin v) (.fin minU)
        (.fin maxU) (.fin minV) (.fin maxV) iters (.fin tol))
      fun A => PatchBase.inverseFrom A.big s p u v minU maxU minV maxV iters tol := by
  unfold inverseFrom PatchBase.inverseFrom
  have hc : ∀ lo hi x : K, clampTo (.fin lo) (.fin hi) (.fin x) = .fin (PatchBase.clampTo lo hi x) := by
    intro lo hi x
    unfold clampTo PatchBase.clampTo
    rw [stdMin_fin, stdMax_fin]
  simp only [hc]
  refine (settles_newtonPatch hE hS p tol minU maxU minV maxV iters _ _ (_, _) (fun A => A.big)
    (comparable_big tol)).bind fun r => ?_
  refine (Settles.assert (.of fun _ => by simp [liftFound, liftPair, Num.le])).bind fun _ => ?_
  refine (Settles.assert (.of fun _ => by simp [liftFound, liftPair, Num.le])).bind fun _ => ?_
  exact Settles.ok' r (.of fun _ => rfl)

/-- C105: with exact evaluators, exact reductions and enough range, the closest point search on a patch
returns the result of the exact search, which then does not depend on the range. -/
theorem C105_exact_patch (tol10 tol100 uR vR : K) {nu nv : ℕ} (hu : 0 < nu) (hv : 0 < nv)
    (minU maxU minV maxV : K) :
    ∃ r : Outcome ((K × K) × Bool), Eventually fun A =>
      patchInverse A (E A) (.fin tol10) (.fin tol100) (.fin (1 / 1000)) (.fin uR) (.fin vR) (S A)
        (lift p) nu nv (.fin minU) (.fin maxU) (.fin minV) (.fin maxV) =
          (fun x => ((.fin x.1.1, .fin x.1.2), x.2)) <$> r ∧
      PatchBase.inverseEvaluate A.big tol10 tol100 uR vR s p nu nv minU maxU minV maxV = r := by
  have h : Settles liftFound (fun A => patchInverse A (E A) (.fin tol10) (.fin tol100) (.fin (1 / 1000))
      (.fin uR) (.fin vR) (S A) (lift p) nu nv (.fin minU) (.fin maxU) (.fin minV) (.fin maxV))
      fun A => PatchBase.inverseEvaluate A.big tol10 tol100 uR vR s p nu nv minU maxU minV maxV := by
    unfold patchInverse PatchBase.inverseEvaluate
    exact (settles_patchSearch hE hS p tol10 uR vR hu hv 10 minU maxU minV maxV).bind fun x =>
      settles_inverseFrom hE hS p x.1 x.2 minU maxU minV maxV 20 tol100
  exact h

end Patch

/-! ### Examples -/

section Examples

/-- The Euclidean plane. -/
noncomputable local instance exPlane : Geom ℝ (Fin 2 → ℝ) where
  dot x y := x 0 * y 0 + x 1 * y 1
  norm x := √(x 0 * x 0 + x 1 * x 1)

local instance : LawfulGeom ℝ (Fin 2 → ℝ) where
  dot_comm x y := by simp only [Geom.dot]; ring
  dot_add x y z := by simp only [Geom.dot, Pi.add_apply]; ring
  dot_smul a x y := by simp only [Geom.dot, Pi.smul_apply, smul_eq_mul]; ring
  dot_self x h := by
    simp only [Geom.dot]
    by_contra h'
    have h0 : x 0 = 0 := by nlinarith [mul_self_nonneg (x 0), mul_self_nonneg (x 1)]
    have h1 : x 1 = 0 := by nlinarith [mul_self_nonneg (x 0), mul_self_nonneg (x 1)]
    exact h (by funext i; fin_cases i <;> simpa)
  norm_nonneg x := Real.sqrt_nonneg _
  norm_sq x := Real.mul_self_sqrt (by nlinarith [mul_self_nonneg (x 0), mul_self_nonneg (x 1)])

/-- Reductions with a rounding after every operation. -/
noncomputable def exOps (A : Format ℝ) : EigenOps ℝ (Fin 2) :=
  let dot (x y : Fin 2 → Num ℝ) :=
    A.round (Num.add (A.round (Num.mul (x 0) (y 0))) (A.round (Num.mul (x 1) (y 1))))
  let det (a b c d : Num ℝ) := A.sub (A.round (Num.mul a d)) (A.round (Num.mul b c))
  { dot := dot
    norm := fun x => match dot x x with
      | .fin y => A.round (.fin √y)
      | y => y
    denom := fun r d2 d1 => A.sub (dot r d2) (dot d1 d1)
    entry := fun x y r z => A.round (Num.add (dot x y) (dot r z))
    det := det
    solve := fun a b c d k1 k2 =>
      (A.round (Num.div (det d b k2 k1) (det a b c d)), A.round (Num.div (det a c k1 k2) (det a b c d))) }

theorem exOps_exact : ExactOps exOps := by
  have hdot : ∀ x y : Fin 2 → ℝ, Eventually fun A => (exOps A).dot (lift x) (lift y) =
      .fin (Geom.dot x y) := fun x y =>
    ((Eventually.mul (x 0) (y 0)).and ((Eventually.mul (x 1) (y 1)).and
      (Eventually.add (x 0 * y 0) (x 1 * y 1)))).mono fun B hB h => by
        simp only [exOps, lift, h.1, h.2.1, h.2.2]
        rfl
  have hdet : ∀ a b c d : ℝ, Eventually fun A =>
      (exOps A).det (.fin a) (.fin b) (.fin c) (.fin d) = .fin (a * d - b * c) := fun a b c d =>
    ((Eventually.mul a d).and ((Eventually.mul b c).and (Eventually.sub (a * d) (b * c)))).mono
      fun B hB h => by simp only [exOps, h.1, h.2.1, h.2.2]
  refine ⟨hdot, fun x => ?_, fun r d2 d1 => ?_, fun x y r z => ?_, hdet, fun a b c d k1 k2 hp => ?_⟩
  · refine ((hdot x x).and (Eventually.round √(Geom.dot x x : ℝ))).mono fun B hB h => ?_
    have : (exOps (exactFormat B hB)).norm (lift x) =
      match (exOps (exactFormat B hB)).dot (lift x) (lift x) with
      | .fin y => (exactFormat B hB).round (.fin √y)
      | y => y := rfl
    rw [this, h.1]
    exact h.2
  · refine ((hdot r d2).and ((hdot d1 d1).and
      (Eventually.sub (Geom.dot r d2 : ℝ) (Geom.dot d1 d1)))).mono fun B hB h => ?_
    change (exactFormat B hB).sub ((exOps (exactFormat B hB)).dot (lift r) (lift d2))
      ((exOps (exactFormat B hB)).dot (lift d1) (lift d1)) = _
    rw [h.1, h.2.1, h.2.2]
    rfl
  · refine ((hdot x y).and ((hdot r z).and
      (Eventually.add (Geom.dot x y : ℝ) (Geom.dot r z)))).mono fun B hB h => ?_
    change (exactFormat B hB).round (Num.add ((exOps (exactFormat B hB)).dot (lift x) (lift y))
      ((exOps (exactFormat B hB)).dot (lift r) (lift z))) = _
    rw [h.1, h.2.1, h.2.2]
  · refine ((hdet a b c d).and ((hdet d b k2 k1).and ((hdet a c k1 k2).and
      ((Eventually.div (d * k1 - b * k2) hp.ne').and (Eventually.div (a * k2 - c * k1) hp.ne'))))).mono
        fun B hB h => ?_
    change ((exactFormat B hB).round (Num.div ((exOps (exactFormat B hB)).det (.fin d) (.fin b) (.fin k2)
        (.fin k1)) ((exOps (exactFormat B hB)).det (.fin a) (.fin b) (.fin c) (.fin d))),
      (exactFormat B hB).round (Num.div ((exOps (exactFormat B hB)).det (.fin a) (.fin c) (.fin k1)
        (.fin k2)) ((exOps (exactFormat B hB)).det (.fin a) (.fin b) (.fin c) (.fin d)))) = _
    rw [h.1, h.2.1, h.2.2.1, h.2.2.2.1, h.2.2.2.2]

/-- The search for the point `(1, 2)` on a parabola. -/
example : ∃ r : Outcome ℝ, Eventually fun A =>
    curveInverse A (exOps A) (fun _ _ => .first) (.fin (1 / 2 ^ 45))
      (bezierFn A (fun _ _ _ => .none) (liftCurve { ctrl := [![0, 0], ![1, 4], ![2, 0]] }))
      (lift ![1, 2]) 6 3 (.fin 0) (.fin 1) = .fin <$> r ∧
    NS.approxInverse A.big (1 / 2 ^ 45)
      ⟨({ ctrl := [![0, 0], ![1, 4], ![2, 0]] } : Bezier (Fin 2 → ℝ)).evaluate,
        ({ ctrl := [![0, 0], ![1, 4], ![2, 0]] } : Bezier (Fin 2 → ℝ)).evaluateDerivative,
        ({ ctrl := [![0, 0], ![1, 4], ![2, 0]] } : Bezier (Fin 2 → ℝ)).evaluate2ndDerivative⟩
      ![1, 2] 6 3 0 1 = r :=
  C105_exact_bezier exOps_exact _ _ _ _ (by positivity) _ _ _ _

/-- The search on a sheared square. -/
example : ∃ r : Outcome ((ℝ × ℝ) × Bool), Eventually fun A =>
    patchInverse A (exOps A) (.fin (1 / 2 ^ 48)) (.fin (1 / 2 ^ 45)) (.fin (1 / 1000)) (.fin 1) (.fin 1)
      { ev := fun u v => ok ![A.round (Num.add u v), v]
        du := fun _ _ => ok ![.fin 1, .fin 0]
        dv := fun _ _ => ok ![.fin 1, .fin 1]
        duu := fun _ _ => ok (lift 0)
        dvv := fun _ _ => ok (lift 0)
        duv := fun _ _ => ok (lift 0) }
      (lift ![3, 2]) 4 4 (.fin 0) (.fin 1) (.fin 0) (.fin 1) =
        (fun x => ((.fin x.1.1, .fin x.1.2), x.2)) <$> r ∧
    PatchBase.inverseEvaluate A.big (1 / 2 ^ 48) (1 / 2 ^ 45) 1 1
      { ev := fun u v => ok ![u + v, v]
        du := fun _ _ => ok ![1, 0]
        dv := fun _ _ => ok ![1, 1]
        duu := fun _ _ => ok 0
        dvv := fun _ _ => ok 0
        duv := fun _ _ => ok 0 } ![3, 2] 4 4 0 1 0 1 = r := by
  have e : ∀ x y : ℝ, lift ![x, y] = ![.fin x, .fin y] := by
    intro x y; funext i; fin_cases i <;> rfl
  refine C105_exact_patch exOps_exact (S := fun A => _) ⟨fun u v => ?_, fun u v => ?_, fun u v => ?_,
    fun u v => ?_, fun u v => ?_, fun u v => ?_⟩ _ _ _ _ _ (by norm_num) (by norm_num) _ _ _ _
  · exact (Eventually.add u v).mono fun B hB h => by dsimp only; rw [h, map_ok, e]
  · exact .of fun _ => by rw [map_ok, e]
  · exact .of fun _ => by rw [map_ok, e]
  · exact .of fun _ => rfl
  · exact .of fun _ => rfl
  · exact .of fun _ => rfl

end Examples

end NS.Ieee
