import Verif.Props.IeeeSpecial
import Verif.Proof.IeeeSearch

/-!
# Property C105: closest point searches with overflow, infinities and NaN

The distances, the steps and the points of the evaluators are arbitrary IEEE numbers: they may be
infinite or NaN.  The range of the search is a range of finite numbers of the format.
-/

set_option linter.unusedSectionVars false

namespace NS.Ieee

open Outcome

section General

variable {K ι : Type} [Field K] [LinearOrder K] [IsStrictOrderedRing K] [FloorRing K]

/-! ### Curves -/

/-- C105: a search on a curve returns NaN or a finite parameter that is not below the range and at most
a few units in the last place above it, whatever the distances and steps.  The range has to contain
zero unless all distances are finite, see `C105_curve_refuted`. -/
theorem C105_curve_partial (A : Format K) (f : ℕ → ℕ → Fuse) (tol : Num K)
    (dist : Num K → Outcome (Num K)) (g : Num K → Outcome (Num K × Num K)) {num : ℕ} (hn : 0 < num)
    (hb : (num : K) ≤ A.big) (level : ℕ) {lo hi : K} (flo : A.IsFloat lo) (fhi : A.IsFloat hi)
    (h : lo ≤ hi) (hlo : -A.big ≤ lo) (width : hi - lo ≤ A.big)
    (reach : hi + A.unit * (hi - lo) ≤ A.big)
    (hz : (∀ t d, dist t = ok d → d.lt (.fin A.big)) ∨ lo ≤ 0 ∧ 0 ≤ hi) :
    (∀ r, curveSearch A f tol dist g num level (.fin lo) (.fin hi) = ok r →
      r = .nan ∨ ∃ y, r = .fin y ∧ lo ≤ y ∧
        y ≤ hi + (3 * A.unit + 2 * A.unit ^ 2) * max |lo| |hi|) ∧
    ((∀ t, ∃ d, dist t = ok d) → (∀ t, ∃ s, g t = ok s) →
      ∃ r, curveSearch A f tol dist g num level (.fin lo) (.fin hi) = ok r) := by
  have hR : Range A lo hi := ⟨flo, fhi, h, hlo, width, reach⟩
  refine ⟨fun r e => ?_, fun hd hg => curveSearch_total hn hd hg level _ _⟩
  have hu := A.unit_nonneg
  have hM : 0 ≤ max |lo| |hi| := (abs_nonneg lo).trans (le_max_left _ _)
  have hc : 0 ≤ (3 * A.unit + 2 * A.unit ^ 2) * max |lo| |hi| := by positivity
  refine (curveSearch_mem hn hb hz level hR e).imp_right ?_
  rintro ⟨y, ey, ⟨hz, rfl⟩ | ⟨a, b, hab, h1, h2, h3, h4⟩⟩
  · exact ⟨0, ey, hz.1, by linarith [hz.2]⟩
  · refine ⟨y, ey, h1.trans h3, h4.trans (max_le (by linarith) ?_)⟩
    have ha : |a| ≤ max |lo| |hi| := abs_le_max_abs_abs h1 (hab.le.trans h2)
    have hb : |b| ≤ max |lo| |hi| := abs_le_max_abs_abs (h1.trans hab.le) h2
    linarith [top_le hab ha hb]

theorem bezierDerivCoef_total (A : Format K) (d : ℕ) (l : List (ι → Num K)) (hd : d < l.length) :
    ∃ l', bezierDerivCoef A d l = ok l' ∧ l'.length = l.length := by
  have hl : l ≠ [] := by rintro rfl; simp at hd
  have e := bezierDerivCoef_arr A d l.length (fun j => l.getD j 0) hd
  have el : arr l.length (fun j => l.getD j 0) = l := by
    have := Fl.list_arr l hl
    rwa [Nat.sub_add_cancel (List.length_pos_iff.2 hl), eq_comm] at this
  rw [el] at e
  exact ⟨_, e, by simp [arr]⟩

theorem bezierDeBoor_total (A : Format K) (F : ℕ → ℕ → ι → Fuse) (b d : ℕ) (t : Num K)
    (l : List (ι → Num K)) (hd : d < l.length) (hb : d ≤ b) :
    ∃ q, bezierDeBoor A F b t (d : ℤ) l = ok q := by
  have hl : l ≠ [] := by rintro rfl; simp at hd
  have e := bezierDeBoor_eq A F b t d l.length (fun j => l.getD j 0) hd hb
  have el : arr l.length (fun j => l.getD j 0) = l := by
    have := Fl.list_arr l hl
    rwa [Nat.sub_add_cancel (List.length_pos_iff.2 hl), eq_comm] at this
  rw [el] at e
  exact ⟨_, e⟩

/-- The evaluators of a Bézier curve that is not periodic return for every parameter. -/
theorem bezierFn_total (A : Format K) (F : ℕ → ℕ → ι → Fuse) (l : List (ι → Num K)) (hl : l ≠ [])
    (t : Num K) : (∃ q, (bezierFn A F { ctrl := l }).ev t = ok q) ∧
      (∃ q, (bezierFn A F { ctrl := l }).d1 t = ok q) ∧
      ∃ q, (bezierFn A F { ctrl := l }).d2 t = ok q := by
  have h0 : 0 < l.length := List.length_pos_iff.2 hl
  have hd : ({ ctrl := l } : Bezier (ι → Num K)).degree = ((l.length - 1 : ℕ) : ℤ) := by
    simp [Bezier.degree]; omega
  have hw : bezierWrap A (Bezier.periodic { ctrl := l }) t = ok t := rfl
  refine ⟨⟨_, bezierEvaluate_eq A F l hl false (t' := t) rfl⟩, ?_, ?_⟩
  · change ∃ q, bezierDerivative A F { ctrl := l } t = ok q
    unfold bezierDerivative
    rw [hw, ok_bind, hd, assert_true (by omega), ok_bind]
    split_ifs with h1
    · exact ⟨_, rfl⟩
    obtain ⟨l', e, hl'⟩ := bezierDerivCoef_total A (l.length - 1) l (by omega)
    rw [Int.toNat_natCast, e, ok_bind,
      show ((l.length - 1 : ℕ) : ℤ) - 1 = ((l.length - 2 : ℕ) : ℤ) by omega]
    exact bezierDeBoor_total A F _ _ t l' (by omega) (by omega)
  · change ∃ q, bezier2ndDerivative A F { ctrl := l } t = ok q
    unfold bezier2ndDerivative
    rw [hw, ok_bind, hd, assert_true (by omega), ok_bind]
    split_ifs with h1
    · exact ⟨_, rfl⟩
    obtain ⟨l', e, hl'⟩ := bezierDerivCoef_total A (l.length - 1) l (by omega)
    obtain ⟨l'', e', hl''⟩ := bezierDerivCoef_total A (l.length - 2) l' (by omega)
    rw [Int.toNat_natCast, e, ok_bind,
      show ((((l.length - 1 : ℕ) : ℤ) - 1).toNat) = l.length - 2 by omega, e', ok_bind,
      show ((l.length - 1 : ℕ) : ℤ) - 2 = ((l.length - 3 : ℕ) : ℤ) by omega]
    exact bezierDeBoor_total A F _ _ t l'' (by omega) (by omega)

theorem curveDist_total {A : Format K} {E : EigenOps K ι} {c : CurveFn (Num K) (ι → Num K)}
    (p : ι → Num K) {t : Num K} (h : ∃ q, c.ev t = ok q) : ∃ d, curveDist A E c p t = ok d := by
  obtain ⟨q, e⟩ := h
  unfold curveDist
  rw [e, ok_bind]
  exact ⟨_, rfl⟩

theorem curveStep_total {A : Format K} {E : EigenOps K ι} {c : CurveFn (Num K) (ι → Num K)}
    (p : ι → Num K) {t : Num K} (h0 : ∃ q, c.ev t = ok q) (h1 : ∃ q, c.d1 t = ok q)
    (h2 : ∃ q, c.d2 t = ok q) : ∃ s, curveStep A E c p t = ok s := by
  obtain ⟨q, e⟩ := h0
  obtain ⟨q1, e1⟩ := h1
  obtain ⟨q2, e2⟩ := h2
  unfold curveStep
  rw [e, ok_bind, e1, ok_bind, e2, ok_bind]
  exact ⟨_, rfl⟩

/-- C105: the closest point search on a Bézier curve (not periodic) with any control points, for any
query, with any reductions of Eigen, returns NaN or a finite parameter in `[0, 1]`. -/
theorem C105_bezier {p : ℕ} {e q : ℤ} (hp : 1 ≤ p) (he : e ≤ 0) (hq : 0 ≤ q) (hp2 : 2 ≤ p)
    (hep : e + p ≤ 1) (E : EigenOps K ι) (F : ℕ → ℕ → ι → Fuse) (f : ℕ → ℕ → Fuse) (tol : Num K)
    (l : List (ι → Num K)) (hl : l ≠ []) (hlen : l.length ≤ 2 ^ (p - 2)) (x : ι → Num K) (level : ℕ) :
    ∃ r, curveInverse (binary p e q hp he hq) E f tol (bezierFn (binary p e q hp he hq) F { ctrl := l })
        x (2 * l.length) level (.fin 0) (.fin 1) = ok r ∧
      (r = .nan ∨ ∃ y, r = .fin y ∧ 0 ≤ y ∧ y ≤ 1) := by
  have h0 : 0 < 2 * l.length := by have := List.length_pos_iff.2 hl; omega
  have hb : ((2 * l.length : ℕ) : K) ≤ (binary p e q hp he hq : Format K).big := by
    apply pow_le_big hp2 hq
    rw [show p - 1 = (p - 2) + 1 by omega, pow_succ]
    omega
  have hu1 : (binary p e q hp he hq : Format K).unit ≤ 1 / 2 := by
    change (1 / 2 : K) ^ p ≤ 1 / 2
    calc ((1 : K) / 2) ^ p ≤ (1 / 2) ^ 1 := pow_le_pow_of_le_one (by norm_num) (by norm_num) hp
      _ = 1 / 2 := by simp
  have hb2 : (2 : K) ≤ (binary p e q hp he hq : Format K).big := by
    have := pow_le_big (K := K) hp2 hq (n := 2) (le_self_pow₀ (by norm_num) (by omega))
    exact_mod_cast this
  have hR : Range (binary p e q hp he hq : Format K) 0 1 :=
    ⟨Format.zero _, Format.one _, zero_le_one, by linarith, by linarith, by linarith⟩
  have ht := bezierFn_total (binary p e q hp he hq : Format K) F l hl
  obtain ⟨r, er⟩ := curveSearch_total (A := binary p e q hp he hq) (f := f) (tol := tol)
    (dist := curveDist (binary p e q hp he hq) E (bezierFn (binary p e q hp he hq) F { ctrl := l }) x)
    (g := curveStep (binary p e q hp he hq) E (bezierFn (binary p e q hp he hq) F { ctrl := l }) x)
    h0 (fun t => curveDist_total x (ht t).1)
    (fun t => curveStep_total x (ht t).1 (ht t).2.1 (ht t).2.2) level (.fin 0) (.fin 1)
  refine ⟨r, er, (curveSearch_mem h0 hb (z := True) (Or.inr trivial) level hR er).imp_right ?_⟩
  rintro ⟨y, ey, ⟨-, rfl⟩ | ⟨a, b, hab, h1, h2, h3, h4⟩⟩
  · exact ⟨0, ey, le_rfl, zero_le_one⟩
  · exact ⟨y, ey, h1.trans h3, h4.trans (max_le h2 (top_one hp he hq hp2 hep hab h1 h2))⟩

/-- Reductions and solvers that propagate NaN, as those of Eigen do. -/
structure EigenOps.Strict (E : EigenOps K ι) : Prop where
  dot_left : ∀ x y, (∃ i, x i = .nan) → E.dot x y = .nan
  dot_right : ∀ x y, (∃ i, y i = .nan) → E.dot x y = .nan
  norm : ∀ x, (∃ i, x i = .nan) → E.norm x = .nan
  entry : ∀ x y r z, (∃ i, r i = .nan) → E.entry x y r z = .nan
  det : ∀ b c d, E.det .nan b c d = .nan
  solve : ∀ b c d r s, E.solve .nan b c d r s = (.nan, .nan)

theorem subPoint_nan_left (A : Format K) {x : ι → Num K} (h : ∃ i, x i = .nan) (y : ι → Num K) :
    ∃ i, subPoint A x y i = .nan := by
  obtain ⟨i, h⟩ := h
  exact ⟨i, by simp [subPoint, h, Format.sub, Num.add, Format.round]⟩

theorem subPoint_nan_right (A : Format K) (x : ι → Num K) {y : ι → Num K} (h : ∃ i, y i = .nan) :
    ∃ i, subPoint A x y i = .nan := by
  obtain ⟨i, h⟩ := h
  refine ⟨i, ?_⟩
  simp only [subPoint, h, Format.sub, Num.neg]
  cases x i <;> rfl

theorem sub_nan (A : Format K) (x : Num K) : A.sub x .nan = .nan := by cases x <;> rfl

theorem newtonCurve_nan {A : Format K} {g : Num K → Outcome (Num K × Num K)} {tol lower upper : Num K}
    (hg : ∀ t, g t = ok (.nan, .nan)) (n : ℕ) :
    ∀ t prevT prevErr, newtonCurve A g tol lower upper (n + 1) t prevT prevErr = ok .nan := by
  have nan_lt : ∀ x : Num K, Num.lt .nan x = false := fun x => by cases x <;> rfl
  have nan_le : ∀ x : Num K, Num.le .nan x = false := fun x => by cases x <;> rfl
  have lt_nan : ∀ x : Num K, x.lt .nan = false := fun x => by cases x <;> rfl
  have le_nan : ∀ x : Num K, x.le .nan = false := fun x => by cases x <;> rfl
  induction n with
  | zero =>
    intro t prevT prevErr
    rw [newtonCurve, hg, ok_bind]
    simp [Num.abs, nan_lt, lt_nan, nan_le, le_nan, sub_nan, newtonCurve]
  | succ n ih =>
    intro t prevT prevErr
    rw [newtonCurve, hg, ok_bind]
    simp [Num.abs, nan_lt, lt_nan, nan_le, le_nan, sub_nan, ih]

theorem curveSearch_nan {A : Format K} {f : ℕ → ℕ → Fuse} {tol : Num K}
    {dist : Num K → Outcome (Num K)} {g : Num K → Outcome (Num K × Num K)} {num : ℕ} (hn : 0 < num)
    (hd : ∀ t, ∃ d, dist t = ok d) (hg : ∀ t, g t = ok (.nan, .nan)) (level : ℕ) :
    ∀ lo hi : Num K, curveSearch A f tol dist g num level lo hi = ok .nan := by
  have hs : ∀ f lo hi, ∃ s, closestSample A f dist num lo hi = ok s := by
    intro f lo hi
    unfold closestSample
    obtain ⟨s, e, -⟩ := loop_inv (fun _ _ => True) (num + 1)
      (fun i s => do
        let t := searchParam A (f i) lo hi num i
        let d ← dist t
        pure (if d.lt s.1 then (d, t) else s)) (.fin A.big, .fin 0) trivial (by
      intro i _ s _
      obtain ⟨d, e⟩ := hd (searchParam A (f i) lo hi num i)
      dsimp only
      rw [e, ok_bind]
      exact ⟨_, rfl, trivial⟩)
    exact ⟨s, e⟩
  induction level with
  | zero =>
    intro lo hi
    obtain ⟨s, e⟩ := hs (f 0) lo hi
    rw [curveSearch, assert_true hn, ok_bind, e, ok_bind]
    exact newtonCurve_nan hg 9 _ _ _
  | succ level ih =>
    intro lo hi
    obtain ⟨s, e⟩ := hs (f (level + 1)) lo hi
    rw [curveSearch, assert_true hn, ok_bind]
    dsimp only
    rw [e, ok_bind]
    exact ih _ _

/-- C105: for a query point with a NaN coordinate the search on a curve returns NaN, never a parameter
that looks like an answer. -/
theorem C105_curve_nan (A : Format K) {E : EigenOps K ι} (hE : E.Strict) (f : ℕ → ℕ → Fuse)
    (tol : Num K) (c : CurveFn (Num K) (ι → Num K)) (h0 : ∀ t, ∃ q, c.ev t = ok q)
    (h1 : ∀ t, ∃ q, c.d1 t = ok q) (h2 : ∀ t, ∃ q, c.d2 t = ok q) {x : ι → Num K}
    (hx : ∃ i, x i = .nan) {num : ℕ} (hn : 0 < num) (level : ℕ) (lower upper : Num K) :
    curveInverse A E f tol c x num level lower upper = ok .nan := by
  refine curveSearch_nan hn (fun t => curveDist_total x (h0 t)) (fun t => ?_) level _ _
  obtain ⟨q, e⟩ := h0 t
  obtain ⟨q1, e1⟩ := h1 t
  obtain ⟨q2, e2⟩ := h2 t
  unfold curveStep
  rw [e, ok_bind, e1, ok_bind, e2, ok_bind, pure_eq]
  rw [hE.dot_left _ _ (subPoint_nan_left A hx q)]
  rfl

/-- C105: the same on a Bézier curve. -/
theorem C105_bezier_nan (A : Format K) {E : EigenOps K ι} (hE : E.Strict) (F : ℕ → ℕ → ι → Fuse)
    (f : ℕ → ℕ → Fuse) (tol : Num K) (l : List (ι → Num K)) (hl : l ≠ []) {x : ι → Num K}
    (hx : ∃ i, x i = .nan) (level : ℕ) (lower upper : Num K) :
    curveInverse A E f tol (bezierFn A F { ctrl := l }) x (2 * l.length) level lower upper
      = ok .nan :=
  C105_curve_nan A hE f tol _ (fun t => (bezierFn_total A F l hl t).1)
    (fun t => (bezierFn_total A F l hl t).2.1) (fun t => (bezierFn_total A F l hl t).2.2) hx
    (by have := List.length_pos_iff.2 hl; omega) level lower upper

/-! ### Patches -/

/-- C105: the recursive search on a patch returns a pair of finite parameters in the box whatever the
distances, even if all are infinite or NaN. -/
theorem C105_patch {p : ℕ} {e q : ℤ} (hp : 1 ≤ p) (he : e ≤ 0) (hq : 0 ≤ q) (hp3 : 3 ≤ p)
    (tol milli uRange vRange : Num K) (dist : Num K → Num K → Outcome (Num K)) {nu nv : ℕ}
    (hnu : 0 < nu) (hnu' : nu ≤ 2 ^ (p - 3)) (hnv : 0 < nv) (hnv' : nv ≤ 2 ^ (p - 3)) (level : ℕ)
    {minU maxU minV maxV : K} (fu : rndSub p e minU = minU) (fu' : rndSub p e maxU = maxU)
    (fv : rndSub p e minV = minV) (fv' : rndSub p e maxV = maxV) (hu : minU ≤ maxU) (hv : minV ≤ maxV)
    (bu : -((2 ^ p - 1 : ℤ) * 2 ^ q : K) ≤ minU) (bu' : maxU ≤ (2 ^ p - 1 : ℤ) * 2 ^ q)
    (bv : -((2 ^ p - 1 : ℤ) * 2 ^ q : K) ≤ minV) (bv' : maxV ≤ (2 ^ p - 1 : ℤ) * 2 ^ q)
    (wu : (nu : K) * ((1 + (1 / 2) ^ p) * (maxU - minU)) ≤ (2 ^ p - 1 : ℤ) * 2 ^ q)
    (wv : (nv : K) * ((1 + (1 / 2) ^ p) * (maxV - minV)) ≤ (2 ^ p - 1 : ℤ) * 2 ^ q) :
    (∀ r, patchSearch (binary p e q hp he hq) tol milli uRange vRange dist nu nv level (.fin minU)
        (.fin maxU) (.fin minV) (.fin maxV) = ok r →
      ∃ u v, r = (.fin u, .fin v) ∧ minU ≤ u ∧ u ≤ maxU ∧ minV ≤ v ∧ v ≤ maxV) ∧
    ((∀ u v, ∃ d, dist u v = ok d) → ∃ r, patchSearch (binary p e q hp he hq) tol milli uRange vRange
      dist nu nv level (.fin minU) (.fin maxU) (.fin minV) (.fin maxV) = ok r) := by
  refine ⟨fun r er => ?_, fun hd => patchSearch_total hd level _ _ _ _⟩
  obtain ⟨⟨u, eu, -, u1, u2⟩, ⟨v, ev, -, v1, v2⟩⟩ := patchSearch_mem
    (moderate_binary hp he hq hp3 hnu hnu') (moderate_binary hp he hq hp3 hnv hnv') level
    ⟨fu, fu', hu, bu, bu', wu⟩ ⟨fv, fv', hv, bv, bv', wv⟩ er
  exact ⟨u, v, Prod.ext eu ev, u1, u2, v1, v2⟩

/-- C105: from any initial guess, even an infinite or NaN one, the iteration on a patch ends with
coordinates that are in the box or NaN; the assertions of `inverse_evaluate` fail exactly in the
latter case. -/
theorem C105_patch_inverse (A : Format K) (E : EigenOps K ι) (s : PatchFn (Num K) (ι → Num K))
    (x : ι → Num K) (tol u v : Num K) (iters : ℕ) {minU maxU minV maxV : K} (hu : minU ≤ maxU)
    (hv : minV ≤ maxV) {r : (Num K × Num K) × Bool}
    (e : newtonPatch A E s x tol (.fin minU) (.fin maxU) (.fin minV) (.fin maxV) iters
      (clampTo (.fin minU) (.fin maxU) u) (clampTo (.fin minV) (.fin maxV) v)
      (clampTo (.fin minU) (.fin maxU) u, clampTo (.fin minV) (.fin maxV) v) (.fin A.big) = ok r) :
    (r.1.1 = .nan ∨ ∃ y, r.1.1 = .fin y ∧ minU ≤ y ∧ y ≤ maxU) ∧
    (r.1.2 = .nan ∨ ∃ y, r.1.2 = .fin y ∧ minV ≤ y ∧ y ≤ maxV) ∧
    inverseFrom A E s x u v (.fin minU) (.fin maxU) (.fin minV) (.fin maxV) iters tol
      = if r.1.1 = .nan ∨ r.1.2 = .nan then ub else ok r := by
  have h0 : NanBox minU maxU minV maxV
      (clampTo (.fin minU) (.fin maxU) u, clampTo (.fin minV) (.fin maxV) v) := by
    obtain ⟨a, ea, a1⟩ := clampTo_mem hu u
    obtain ⟨b, eb, b1⟩ := clampTo_mem hv v
    exact ⟨Or.inr ⟨a, ea, a1⟩, Or.inr ⟨b, eb, b1⟩⟩
  obtain ⟨h1, h2⟩ := newtonPatch_mem hu hv iters e h0 h0
  refine ⟨h1, h2, ?_⟩
  unfold inverseFrom
  dsimp only
  rw [e, ok_bind]
  rcases h1 with h1 | ⟨a, ea, a1, a2⟩
  · rw [assert_false (by rw [h1]; simp [Num.le]), if_pos (Or.inl h1)]
    rfl
  · rw [assert_true (by rw [ea]; simp [Num.le, a1, a2]), ok_bind]
    rcases h2 with h2 | ⟨b, eb, b1, b2⟩
    · rw [assert_false (by rw [h2]; simp [Num.le]), if_pos (Or.inr h2)]
      rfl
    · rw [assert_true (by rw [eb]; simp [Num.le, b1, b2]), ok_bind, if_neg (by rw [ea, eb]; simp),
        pure_eq]

theorem newtonPatch_nan {A : Format K} {E : EigenOps K ι} (hE : E.Strict)
    {s : PatchFn (Num K) (ι → Num K)} (h0 : ∀ u v, ∃ q, s.ev u v = ok q)
    (h1 : ∀ u v, ∃ q, s.du u v = ok q) (h2 : ∀ u v, ∃ q, s.dv u v = ok q)
    (h3 : ∀ u v, ∃ q, s.duu u v = ok q) (h4 : ∀ u v, ∃ q, s.dvv u v = ok q)
    (h5 : ∀ u v, ∃ q, s.duv u v = ok q) {x : ι → Num K} (hx : ∃ i, x i = .nan) {tol : Num K}
    {minU maxU minV maxV : Num K} (n : ℕ) :
    ∀ u v prev pd, newtonPatch A E s x tol minU maxU minV maxV (n + 1) u v prev pd
      = ok ((.nan, .nan), true) := by
  have lt_nan : ∀ y : Num K, y.lt .nan = false := fun y => by cases y <;> rfl
  have nan_lt : ∀ y : Num K, Num.lt .nan y = false := fun y => by cases y <;> rfl
  have add_nan : ∀ y : Num K, A.round (y.add .nan) = .nan := fun y => by cases y <;> rfl
  have abs_sub : ∀ y : Num K, (A.sub .nan y).abs = .nan := fun y => by cases y <;> rfl
  have clamp : ∀ lo hi : Num K, clampStep lo hi .nan = .nan := fun lo hi => by
    simp [clampStep, nan_lt, lt_nan]
  have step : ∀ (n : ℕ) (u v : Num K) (prev : Num K × Num K) (pd : Num K),
      newtonPatch A E s x tol minU maxU minV maxV (n + 1) u v prev pd
        = newtonPatch A E s x tol minU maxU minV maxV n .nan .nan (u, v) .nan := by
    intro n u v prev pd
    obtain ⟨q, e0⟩ := h0 u v
    obtain ⟨q1, e1⟩ := h1 u v
    obtain ⟨q2, e2⟩ := h2 u v
    obtain ⟨q3, e3⟩ := h3 u v
    obtain ⟨q4, e4⟩ := h4 u v
    obtain ⟨q5, e5⟩ := h5 u v
    have hr := subPoint_nan_right A q hx
    rw [newtonPatch, e0, ok_bind]
    dsimp only
    rw [hE.norm _ hr, if_neg (by simp [nan_lt, abs_sub]), if_neg (by simp [lt_nan]), e1, ok_bind, e2,
      ok_bind, hE.dot_right _ _ hr, if_neg (by simp [Num.abs, nan_lt]), e3, ok_bind, e4, ok_bind, e5,
      ok_bind, hE.entry _ _ _ _ hr, hE.det, if_neg (by simp [Num.le]), hE.solve, add_nan, add_nan,
      clamp, clamp]
  induction n with
  | zero => intro u v prev pd; rw [step]; rfl
  | succ n ih => intro u v prev pd; rw [step]; exact ih _ _ _ _

/-- C105: for a query point with a NaN coordinate the iteration on a patch returns NaN for both
parameters and reports convergence, and the assertion of `inverse_evaluate` fails. -/
theorem C105_patch_nan (A : Format K) {E : EigenOps K ι} (hE : E.Strict)
    (s : PatchFn (Num K) (ι → Num K)) (h0 : ∀ u v, ∃ q, s.ev u v = ok q)
    (h1 : ∀ u v, ∃ q, s.du u v = ok q) (h2 : ∀ u v, ∃ q, s.dv u v = ok q)
    (h3 : ∀ u v, ∃ q, s.duu u v = ok q) (h4 : ∀ u v, ∃ q, s.dvv u v = ok q)
    (h5 : ∀ u v, ∃ q, s.duv u v = ok q) {x : ι → Num K} (hx : ∃ i, x i = .nan)
    (tol10 tol100 milli uRange vRange : Num K) (nu nv : ℕ) (minU maxU minV maxV : Num K) :
    (∀ u v prev pd, newtonPatch A E s x tol100 minU maxU minV maxV 20 u v prev pd
      = ok ((.nan, .nan), true)) ∧
    patchInverse A E tol10 tol100 milli uRange vRange s x nu nv minU maxU minV maxV = ub := by
  have hn := newtonPatch_nan (A := A) hE h0 h1 h2 h3 h4 h5 hx (tol := tol100) (minU := minU)
    (maxU := maxU) (minV := minV) (maxV := maxV) 19
  refine ⟨hn, ?_⟩
  unfold patchInverse
  obtain ⟨r, er⟩ := patchSearch_total (A := A) (tol := tol10) (milli := milli) (uR := uRange)
    (vR := vRange) (dist := patchDist A E s x) (nu := nu) (nv := nv) (fun u v => by
      obtain ⟨q, e⟩ := h0 u v
      unfold patchDist
      rw [e, ok_bind]
      exact ⟨_, rfl⟩) 10 minU maxU minV maxV
  rw [er, ok_bind]
  unfold inverseFrom
  dsimp only
  rw [hn, ok_bind, assert_false (by cases minU <;> simp [Num.le])]
  rfl

end General

/-! ### Double precision -/

/-- Reductions of points of the plane in the order of the coordinates; the length of a difference is
replaced by its square, only its treatment of NaN matters here. -/
def planeOps (A : Format ℚ) : EigenOps ℚ (Fin 2) where
  dot x y := A.round (Num.add (A.round (Num.mul (x 0) (y 0))) (A.round (Num.mul (x 1) (y 1))))
  norm x := A.round (Num.add (A.round (Num.mul (x 0) (x 0))) (A.round (Num.mul (x 1) (x 1))))
  denom r d2 d1 := A.sub
    (A.round (Num.add (A.round (Num.mul (r 0) (d2 0))) (A.round (Num.mul (r 1) (d2 1)))))
    (A.round (Num.add (A.round (Num.mul (d1 0) (d1 0))) (A.round (Num.mul (d1 1) (d1 1)))))
  entry x y r z := A.round (Num.add
    (A.round (Num.add (A.round (Num.mul (x 0) (y 0))) (A.round (Num.mul (x 1) (y 1)))))
    (A.round (Num.add (A.round (Num.mul (r 0) (z 0))) (A.round (Num.mul (r 1) (z 1))))))
  det a b c d := A.sub (A.round (Num.mul a d)) (A.round (Num.mul b c))
  solve a b c d r s :=
    let k := A.round (Num.div (.fin 1) (A.sub (A.round (Num.mul a d)) (A.round (Num.mul b c))))
    (A.round (Num.add (A.round (Num.mul (A.round (Num.mul d k)) r))
        (A.round (Num.mul (A.round (Num.mul (Num.neg b) k)) s))),
      A.round (Num.add (A.round (Num.mul (A.round (Num.mul (Num.neg c) k)) r))
        (A.round (Num.mul (A.round (Num.mul a k)) s))))

theorem mul_nan (x : Num ℚ) : Num.mul x .nan = .nan := by cases x <;> rfl
theorem nan_mul (x : Num ℚ) : Num.mul .nan x = .nan := by cases x <;> rfl
theorem add_nan (x : Num ℚ) : Num.add x .nan = .nan := by cases x <;> rfl
theorem nan_add (x : Num ℚ) : Num.add .nan x = .nan := by cases x <;> rfl
theorem div_nan (x : Num ℚ) : Num.div x .nan = .nan := by cases x <;> rfl
theorem round_nan (A : Format ℚ) : A.round .nan = .nan := rfl

theorem planeOps_strict (A : Format ℚ) : (planeOps A).Strict := by
  have nan_sub : ∀ x : Num ℚ, A.sub .nan x = .nan := fun x => by cases x <;> rfl
  constructor
  · rintro x y ⟨i, hi⟩
    fin_cases i <;> simp_all [planeOps, nan_mul, add_nan, nan_add, round_nan]
  · rintro x y ⟨i, hi⟩
    fin_cases i <;> simp_all [planeOps, mul_nan, add_nan, nan_add, round_nan]
  · rintro x ⟨i, hi⟩
    fin_cases i <;> simp_all [planeOps, mul_nan, add_nan, nan_add, round_nan]
  · rintro x y r z ⟨i, hi⟩
    fin_cases i <;> simp_all [planeOps, nan_mul, add_nan, nan_add, round_nan]
  · intro b c d
    simp [planeOps, nan_mul, round_nan, nan_sub]
  · intro b c d r s
    simp [planeOps, nan_mul, round_nan, nan_sub, div_nan, mul_nan, nan_add]

/-- A segment on the first axis. -/
def segment (a : ℚ) : List (Fin 2 → Num ℚ) := [fun _ => .fin 0, ![.fin a, .fin 0]]

/-- C105: with a query so far away that the squared distances overflow, the search over the range
`[1/4, 1/2]` of the unit segment returns `0`, a parameter outside the range. -/
theorem C105_curve_refuted :
    curveInverse double (planeOps double) (fun _ _ => .none) (.fin (100 * (1 / 2) ^ 52))
      (bezierFn double (fun _ _ _ => .none) { ctrl := segment 1 }) ![.fin 0, .fin (2 ^ 700)] 4 3
      (.fin (1 / 4)) (.fin (1 / 2)) = ok (.fin 0) := by
  decide +kernel

/-- C105: a segment and a query with finite coordinates for which the search returns NaN. -/
theorem C105_nan_refuted :
    curveInverse double (planeOps double) (fun _ _ => .none) (.fin (100 * (1 / 2) ^ 52))
      (bezierFn double (fun _ _ _ => .none) { ctrl := segment (2 ^ 600) }) ![.fin (2 ^ 601), .fin 0] 4 3
      (.fin 0) (.fin 1) = ok .nan := by
  decide +kernel

/-! ### Instances of the hypotheses -/

/-- A near query: the search finds the foot of the perpendicular. -/
example : curveInverse double (planeOps double) (fun _ _ => .none) (.fin (100 * (1 / 2) ^ 52))
    (bezierFn double (fun _ _ _ => .none) { ctrl := segment 1 }) ![.fin (3 / 8), .fin 1] 4 3
    (.fin 0) (.fin 1) = ok (.fin (3 / 8)) := by
  decide +kernel

/-- A curve with infinite and NaN control points. -/
example : ∃ r, curveInverse double (planeOps double) (fun _ _ => .none) (.fin (100 * (1 / 2) ^ 52))
    (bezierFn double (fun _ _ _ => .none)
      { ctrl := [fun _ => .nan, fun _ => .inf true, fun _ : Fin 2 => .fin double.big] })
    ![.fin 0, .inf false] 6 3 (.fin 0) (.fin 1) = ok r ∧ (r = .nan ∨ ∃ y, r = .fin y ∧ 0 ≤ y ∧ y ≤ 1) :=
  C105_bezier (by norm_num) (by norm_num) (by norm_num) (by norm_num) (by norm_num) _ _ _ _
    [fun _ => .nan, fun _ => .inf true, fun _ => .fin double.big] (by simp) (by simp) _ 3

/-- The range `[1, 3]` with distances that are all finite. -/
example (r : Num ℚ) (e : curveSearch double (fun _ _ => .none) (.fin (1 / 2 ^ 40))
    (fun _ => ok (.fin 5)) (fun _ => ok (.inf true, .inf false)) 8 3 (.fin 1) (.fin 3) = ok r) :
    r = .nan ∨ ∃ y, r = .fin y ∧ 1 ≤ y ∧
      y ≤ 3 + (3 * double.unit + 2 * double.unit ^ 2) * max |(1 : ℚ)| |(3 : ℚ)| :=
  (C105_curve_partial double _ _ _ _ (by norm_num) (by decide +kernel) 3
    (show double.rnd 1 = 1 by decide +kernel) (show double.rnd 3 = 3 by decide +kernel) (by norm_num)
    (by decide +kernel) (by decide +kernel) (by decide +kernel)
    (Or.inl (fun t d h => by rw [ok.injEq] at h; subst h; decide +kernel))).1 r e

/-- A search on the box `[0, 1] × [-1, 2]` with NaN distances. -/
example : ∃ r, patchSearch double (.fin (1 / 2 ^ 40)) (.fin (1 / 1000)) (.fin 1) (.fin 3)
    (fun _ _ => ok .nan) 5 7 4 (.fin 0) (.fin 1) (.fin (-1)) (.fin 2) = ok r ∧
      ∃ u v, r = (.fin u, .fin v) ∧ 0 ≤ u ∧ u ≤ 1 ∧ -1 ≤ v ∧ v ≤ (2 : ℚ) := by
  obtain ⟨h1, h2⟩ := C105_patch (K := ℚ) (p := 53) (e := -1074) (q := 971) (by norm_num) (by norm_num)
    (by norm_num) (by norm_num) (.fin (1 / 2 ^ 40)) (.fin (1 / 1000)) (.fin 1) (.fin 3)
    (fun _ _ => ok .nan) (nu := 5) (nv := 7) (by norm_num) (by norm_num) (by norm_num) (by norm_num) 4
    (minU := 0) (maxU := 1) (minV := -1) (maxV := 2) (by decide +kernel) (by decide +kernel)
    (by decide +kernel) (by decide +kernel) (by norm_num) (by norm_num) (by decide +kernel)
    (by decide +kernel) (by decide +kernel) (by decide +kernel) (by decide +kernel) (by decide +kernel)
  obtain ⟨r, e⟩ := h2 fun _ _ => ⟨_, rfl⟩
  exact ⟨r, e, h1 r e⟩

/-- The plane as a patch. -/
def planePatch : PatchFn (Num ℚ) (Fin 2 → Num ℚ) where
  ev u v := ok ![u, v]
  du _ _ := ok ![.fin 1, .fin 0]
  dv _ _ := ok ![.fin 0, .fin 1]
  duu _ _ := ok fun _ => .fin 0
  dvv _ _ := ok fun _ => .fin 0
  duv _ _ := ok fun _ => .fin 0

/-- A query in the box is found from a NaN guess; a query with a NaN coordinate is not. -/
example : inverseFrom double (planeOps double) planePatch ![.fin (1 / 4), .fin (1 / 8)] .nan .nan
      (.fin 0) (.fin 1) (.fin 0) (.fin 1) 20 (.fin (100 * (1 / 2) ^ 52))
        = ok ((.fin (1 / 4), .fin (1 / 8)), true) ∧
    patchInverse double (planeOps double) (.fin (10 * (1 / 2) ^ 52)) (.fin (100 * (1 / 2) ^ 52))
      (.fin (double.rnd (1 / 1000))) (.fin 1) (.fin 1) planePatch ![.nan, .fin 0] 4 4
      (.fin 0) (.fin 1) (.fin 0) (.fin 1) = ub :=
  ⟨by decide +kernel, (C105_patch_nan double (planeOps_strict _) _ (fun _ _ => ⟨_, rfl⟩)
    (fun _ _ => ⟨_, rfl⟩) (fun _ _ => ⟨_, rfl⟩) (fun _ _ => ⟨_, rfl⟩) (fun _ _ => ⟨_, rfl⟩)
    (fun _ _ => ⟨_, rfl⟩) ⟨0, rfl⟩ _ _ _ _ _ _ _ _ _ _ _).2⟩

end NS.Ieee
