import Verif.Proof.PolygonLength
import Verif.Proof.BSplineMap
import Verif.Proof.SplitBSpline
import Verif.Proof.ToBezier
import Verif.Proof.Unique
import Verif.Proof.BezierEval
import Verif.Props.Unique

/-!
# Refinement of control polygons cuts corners
-/

set_option linter.unusedSectionVars false

namespace NS.BSpline

open Outcome Spec Finset

variable {K V : Type} [Field K] [LinearOrder K] [IsStrictOrderedRing K] [FloorRing K]
  [AddCommGroup V] [Module K V]

/-- An affine function of cut polygons. -/
theorem Cuts.affine {N M : ℕ} {b b' : ℕ → V} (h : Cuts K N b M b') (f : V →ₗ[K] K) (a : K) :
    Cuts K N (fun i => f (b i) + a) M (fun i => f (b' i) + a) := by
  induction h with
  | same d hd => exact .same _ fun i hi => by rw [hd i hi]
  | step M d d' _ hs ih =>
    refine .step M _ _ ih ?_
    obtain ⟨x, x1, x2, x3, x4⟩ := hs
    refine ⟨x, x1, x2, x3, fun i hi => ?_⟩
    simp only [x4 i hi, map_add, map_smul, smul_eq_mul]
    ring

/-- Every successful insertion cuts corners of the control polygon. -/
theorem insertKnot_finer {eps : K} (heps : 0 ≤ eps) {c c' : BSpline K V} {p : ℕ}
    (hc : WellFormed c p) {t : K} (hf : FirstSpan c p ∨ knot c.knots p < t)
    (h1 : knot c.knots p ≤ t) (h2 : t ≤ knot c.knots c.ctrl.length) {r : ℕ} (hr : 1 ≤ r)
    (e : c.insertKnot eps t r = ok c') : Finer p c c' ∧ Inserted c c' p t r := by
  have hl := hc.len
  obtain ⟨a, Q0, ha, hin⟩ := exists_atSpan hc t hf h1 h2
  have hI := insertKnot_inserted heps hc hf h1 h2 hr
  simp only at hI
  have hE := insertKnot_eq heps hc h1 h2 ha.loc ha.le ha.lt ha.ne rfl (r := r) hr
  set s := if t = knot c.knots a then c.knots.count t else 0 with hs
  have hrs : r + s ≤ p := by
    by_contra h
    rw [hE.1 (by omega)] at e
    cases e
  have hI' : ∃ c', c.insertKnot eps t r = ok c' ∧ Inserted c c' p t r := by
    rcases le_or_gt (r + if t = knot c.knots c.ctrl.length then 0 else c.knots.count t) p with h | h
    · exact hI.2 h
    · rw [hI.1 h] at e
      cases e
  obtain ⟨d, ed, hd⟩ := hI'
  rw [e] at ed
  obtain rfl := ok.inj ed
  obtain ⟨g, eg, hg⟩ := hE.2 hrs
  rw [e] at eg
  have edd := ok.inj eg
  refine ⟨⟨hd.wf, hd.lower, hd.upper, hd.point, fun y => ?_, ?_⟩, hd⟩
  · rw [hd.perm.count_eq, List.count_append]
    omega
  · have hst := insCtrl_stage ha.le (by omega) hg
    have hb := hin.bounds
    have hl' : c'.ctrl.length = c.ctrl.length + r := by rw [edd]; simp
    rw [hl']
    refine (stage_cuts (k := a) (t := t) hc.sorted ha.le (by have := ha.lt; omega) ha.lt ha.ne
      hb.1 hb.2 r (s := s) (by omega)).congr_right fun i hi => ?_
    rw [edd, ← hst i hi]
    exact arr_getD _ _ _ _ hi

/-- The same for sequences of insertions above the lower end of the domain. -/
theorem insertAll_finer {eps : K} (heps : 0 ≤ eps) {p : ℕ} (ops : List (K × ℕ)) :
    ∀ {c c' : BSpline K V}, WellFormed c p →
      (∀ op ∈ ops, knot c.knots p < op.1 ∧ op.1 ≤ knot c.knots c.ctrl.length ∧ 1 ≤ op.2) →
      ops.foldlM (fun c op => c.insertKnot eps op.1 op.2) c = ok c' → Finer p c c' := by
  induction ops with
  | nil =>
    intro c c' hc _ e
    obtain rfl := ok.inj e
    exact Finer.refl hc
  | cons op ops ih =>
    intro c c' hc hops e
    obtain ⟨a1, a2, a3⟩ := hops op (by simp)
    rw [List.foldlM_cons] at e
    cases e1 : c.insertKnot eps op.1 op.2 with
    | ok c1 =>
      rw [e1, ok_bind] at e
      have F := (insertKnot_finer heps hc (Or.inr a1) a1.le a2 a3 e1).1
      exact F.trans (ih F.wf (fun o ho => by
        rw [F.lower, F.upper]; exact hops o (by simp [ho])) e)
    | throw x => rw [e1] at e; cases e
    | ub => rw [e1] at e; cases e

/-- Sequences of insertions commute with linear maps. -/
theorem insertAll_map {W : Type} [AddCommGroup W] [Module K W] (f : V →ₗ[K] W) {eps : K}
    (ops : List (K × ℕ)) : ∀ c : BSpline K V,
      ops.foldlM (fun c op => c.insertKnot eps op.1 op.2) (image f c)
        = (image f) <$> ops.foldlM (fun c op => c.insertKnot eps op.1 op.2) c := by
  induction ops with
  | nil => intro c; rfl
  | cons op ops ih =>
    intro c
    rw [List.foldlM_cons, List.foldlM_cons, insertKnot_map]
    cases e1 : c.insertKnot eps op.1 op.2 with
    | ok c1 => exact ih c1
    | throw x => rfl
    | ub => rfl

/-- The curve together with its parameter. -/
def lifted (c : BSpline K V) (p : ℕ) : BSpline K (V × K) :=
  BSpline.mk (arr c.ctrl.length fun i => (c.ctrl.getD i 0, abscissa c.knots p i)) c.knots c.periodic
    c.sdeg

theorem lifted_fst (c : BSpline K V) (p : ℕ) :
    image (LinearMap.fst K V K) (lifted c p) = c := by
  have e : (lifted c p).ctrl.map (LinearMap.fst K V K) = c.ctrl := by
    conv_rhs => rw [eq_arr c.ctrl 0]
    unfold lifted arr
    simp
  cases c
  simp only [image, BSpline.mk.injEq]
  exact ⟨e, rfl, rfl, rfl⟩

theorem lifted_wf {c : BSpline K V} {p : ℕ} (hc : WellFormed c p) : WellFormed (lifted c p) p := by
  have h : (lifted c p).ctrl.length = c.ctrl.length := by simp [lifted]
  exact ⟨by rw [h]; exact hc.len, hc.sdeg, by rw [h]; exact hc.ctrl, hc.sorted,
    by rw [h]; exact hc.dom⟩

theorem bsplinePoint_snd (p : ℕ) (u : List K) (A : List (V × K)) (t : K) :
    (bsplinePoint p u A t).2 = bsplinePoint p u (A.map Prod.snd) t := by
  rw [bsplinePoint, bsplinePoint, Prod.snd_sum, List.length_map]
  refine sum_congr rfl fun i hi => ?_
  have hi' : i < A.length := by simpa using hi
  simp [hi']

theorem point_abscissa {u : List K} (hs : u.Pairwise (· ≤ ·)) {p n k : ℕ} (hp : p ≠ 0)
    (hlen : u.length = n + p + 1) {t : K} (hk : InSpan (knot u) (knot u n) k t) (hpk : p ≤ k)
    (hkn : k < n) : bsplinePoint p u (arr n (abscissa u p)) t = t := by
  rw [bsplinePoint, arr_length]
  rw [← linear_precision hs hp hlen hk hpk hkn]
  refine sum_congr rfl fun i hi => ?_
  rw [arr_getD _ _ _ _ (by simpa using hi), smul_eq_mul]
  rw [linear_precision hs hp hlen hk hpk hkn]

/-- The control points of a refined curve that belong to a span keep the slopes of the polygon. -/
theorem refined_slope {nrm : V → K} (hn : IsSeminorm nrm) {eps : K} (heps : 0 ≤ eps) {p : ℕ}
    (hp : p ≠ 0) {ops : List (K × ℕ)} {c c' : BSpline K V} (hc : WellFormed c p)
    (hops : ∀ op ∈ ops, knot c.knots p < op.1 ∧ op.1 ≤ knot c.knots c.ctrl.length ∧ 1 ≤ op.2)
    (e : ops.foldlM (fun c op => c.insertKnot eps op.1 op.2) c = ok c') {B : K}
    (hB : ∀ i, i + 1 < c.ctrl.length → nrm (c.ctrl.getD (i + 1) 0 - c.ctrl.getD i 0)
      ≤ B * (abscissa c.knots p (i + 1) - abscissa c.knots p i)) {k : ℕ} (hpk : p ≤ k)
    (hk : k < c'.ctrl.length) (hlt : knot c'.knots k < knot c'.knots (k + 1)) {i j : ℕ}
    (hi : k - p ≤ i) (hij : i ≤ j) (hj : j ≤ k) :
    nrm (c'.ctrl.getD j 0 - c'.ctrl.getD i 0)
      ≤ B * (abscissa c'.knots p j - abscissa c'.knots p i) := by
  have hl := hc.len
  have hcl := hc.ctrl
  have hm := insertAll_map (eps := eps) (LinearMap.fst K V K) ops (lifted c p)
  rw [lifted_fst, e] at hm
  obtain ⟨C, eC, hC⟩ := map_eq_ok.1 hm.symm
  subst hC
  have hlen : (lifted c p).ctrl.length = c.ctrl.length := by simp [lifted]
  have F := insertAll_finer heps ops (lifted_wf hc) (by rw [hlen]; exact hops) eC
  have hlC := F.wf.len
  have hCk : (image (LinearMap.fst K V K) C).knots = C.knots := rfl
  have hCl : (image (LinearMap.fst K V K) C).ctrl.length = C.ctrl.length := by simp
  rw [hCk] at hlt ⊢
  rw [hCl] at hk
  have hcone : IsCone K (fun q : V × K => nrm q.1 ≤ B * q.2) := by
    refine ⟨by simp [nrm_zero hn], fun x y hx hy => ?_, fun r x hr hx => ?_⟩
    · have := hn.tri x.1 y.1
      simp only [Prod.fst_add, Prod.snd_add]
      linarith
    · simp only [Prod.smul_fst, Prod.smul_snd, smul_eq_mul]
      rw [hn.smul, abs_of_nonneg hr]
      nlinarith
  have hedge := F.cuts.cone hcone (fun i hi => by
    rw [hlen] at hi
    simp only [lifted]
    rw [arr_getD _ _ _ _ hi, arr_getD _ _ _ _ (by omega)]
    exact hB i hi)
  have hchord : ∀ d, i + d ≤ k →
      nrm ((C.ctrl.getD (i + d) 0).1 - (C.ctrl.getD i 0).1)
        ≤ B * ((C.ctrl.getD (i + d) 0).2 - (C.ctrl.getD i 0).2) := by
    intro d
    induction d with
    | zero => intro _; simp [nrm_zero hn]
    | succ d ih =>
      intro hd
      have h1 := ih (by omega)
      have h2 := hedge (i + d) (by omega)
      simp only [Prod.fst_sub, Prod.snd_sub] at h2
      have h3 := nrm_sub_le hn (C.ctrl.getD (i + (d + 1)) 0).1 (C.ctrl.getD (i + d) 0).1
        (C.ctrl.getD i 0).1
      rw [← add_assoc] at h3 ⊢
      linarith
  obtain ⟨hinf, hin⟩ := Props.span_infinite hlt F.wf.sorted hk (by omega)
  have huniq := bsplinePoint_unique F.wf.sorted (p := p) (k := k) (A := C.ctrl.map Prod.snd)
    (B := arr C.ctrl.length (abscissa C.knots p)) (by simpa using hlC) (by simp) hpk (by simpa using hk)
    hinf (by simpa using hin) (fun t ht => by
      rw [point_abscissa F.wf.sorted hp hlC (hin t ht) hpk hk, ← bsplinePoint_snd]
      have b1 : knot C.knots p ≤ t := (knot_mono F.wf.sorted hpk (by omega)).trans ht.1.le
      have b2 : t ≤ knot C.knots C.ctrl.length :=
        ht.2.le.trans (knot_mono F.wf.sorted (by omega) (by omega))
      rw [F.lower] at b1
      rw [F.upper, hlen] at b2
      rw [F.point t b1 (by rw [hlen]; exact b2), bsplinePoint_snd]
      obtain ⟨m, m1, m2, m3⟩ := exists_inSpan (u := knot c.knots) (p := p) (n := c.ctrl.length)
        hc.dom (by omega) (t := t) b1 b2 (fun i j hij hj => knot_mono hc.sorted hij (by omega))
      have e : (lifted c p).ctrl.map Prod.snd = arr c.ctrl.length (abscissa c.knots p) := by
        simp [lifted, arr]
      rw [e]
      exact point_abscissa hc.sorted hp hl m3 m1 m2)
  have hs : ∀ l, k - p ≤ l → l ≤ k → (C.ctrl.getD l 0).2 = abscissa C.knots p l := by
    intro l l1 l2
    have := huniq l l1 l2
    rw [arr_getD _ _ _ _ (by omega)] at this
    rw [← this]
    have hl' : l < C.ctrl.length := by omega
    simp [hl']
  have hf : ∀ l, l < C.ctrl.length →
      (image (LinearMap.fst K V K) C).ctrl.getD l 0 = (C.ctrl.getD l 0).1 := by
    intro l hl'
    simp [hl']
  have := hchord (j - i) (by omega)
  rw [show i + (j - i) = j by omega, hs j (by omega) hj, hs i hi (by omega)] at this
  rw [hf j (by omega), hf i (by omega)]
  exact this

theorem abscissa_mono {u : List K} (hs : u.Pairwise (· ≤ ·)) {p i j : ℕ} (hij : i ≤ j)
    (hj : j + p < u.length) : abscissa u p i ≤ abscissa u p j := by
  unfold abscissa
  refine div_le_div_of_nonneg_right (sum_le_sum fun r hr => ?_) (by positivity)
  have : r < p := by simpa using hr
  exact knot_mono hs (by omega) (by omega)

/-- The distance of mean knots of a span, when neighbouring knots differ by at most `h`. -/
theorem abscissa_gap {u : List K} {p i k : ℕ} (hp : p ≠ 0) (hi : i ≤ k) (hik : k ≤ i + p) {h : K} (h0 : 0 ≤ h)
    (hgap : ∀ l, i < l → l < k + p → knot u (l + 1) - knot u l ≤ h) :
    abscissa u p k - abscissa u p i ≤ p * h := by
  have hp' : (0 : K) < p := by exact_mod_cast Nat.pos_of_ne_zero hp
  unfold abscissa
  rw [← sub_div, ← sum_sub_distrib, div_le_iff₀ hp']
  have : ∀ r ∈ range p, knot u (k + 1 + r) - knot u (i + 1 + r) ≤ p * h := by
    intro r hr
    have hr' : r < p := by simpa using hr
    have key : ∀ d, i + d ≤ k → knot u (i + d + 1 + r) - knot u (i + 1 + r) ≤ d * h := by
      intro d
      induction d with
      | zero => intro _; simp
      | succ d ih =>
        intro hd
        have h1 := ih (by omega)
        have h2 := hgap (i + d + 1 + r) (by omega) (by omega)
        rw [show i + (d + 1) + 1 + r = i + d + 1 + r + 1 by omega]
        push_cast
        linarith
    have := key (k - i) (by omega)
    rw [show i + (k - i) = k by omega] at this
    refine this.trans (mul_le_mul_of_nonneg_right ?_ h0)
    exact_mod_cast (by omega : k - i ≤ p)
  refine (sum_le_sum this).trans (le_of_eq ?_)
  rw [sum_const, card_range, nsmul_eq_mul]
  ring

/-! ### Bezier curves -/

open Polynomial in
/-- Stage `j` of the corners cut by de Casteljau's algorithm: the first points of the left piece,
the points of level `j`, the last points of the right piece. -/
noncomputable def casteljau (P : ℕ → V) (t : K) (n j i : ℕ) : V :=
  umb P (lin t ^ (min i (min j (n + j - i))) * (X : K[X]) ^ (i - j))

open Polynomial in
theorem casteljau_cut (P : ℕ → V) {t : K} (h0 : 0 ≤ t) (h1 : t ≤ 1) {n j : ℕ} (hj : j < n) :
    CutStep K (n + 1 + j) (casteljau P t n j) (casteljau P t n (j + 1)) := by
  refine ⟨fun i => if i ≤ j then 1 else if i ≤ n then t else 0, fun i => ?_, by simp, ?_,
    fun i hi => ?_⟩
  · dsimp only
    split_ifs
    · exact ⟨zero_le_one, le_rfl⟩
    · exact ⟨h0, h1⟩
    · exact ⟨le_rfl, zero_le_one⟩
  · dsimp only
    rw [if_neg (by omega), if_neg (by omega)]
  · dsimp only
    unfold casteljau
    by_cases a : i ≤ j
    · rw [if_pos a, one_smul, sub_self, zero_smul, add_zero]
      congr 3 <;> omega
    · rw [if_neg a]
      by_cases b : i ≤ n
      · rw [if_pos b, show min i (min (j + 1) (n + (j + 1) - i)) = j + 1 by omega,
          show min i (min j (n + j - i)) = j by omega,
          show min (i - 1) (min j (n + j - (i - 1))) = j by omega, pow_succ', mul_assoc, umb_lin_mul,
          show i - j = (i - (j + 1)) + 1 by omega, show i - 1 - j = i - (j + 1) by omega, pow_succ',
          mul_left_comm X, add_comm]
      · rw [if_neg b, zero_smul, sub_zero, one_smul, zero_add]
        congr 3 <;> omega

open Polynomial in
/-- The control polygons of both pieces, one after the other, arise by cutting corners. -/
theorem casteljau_cuts (P : ℕ → V) {t : K} (h0 : 0 ≤ t) (h1 : t ≤ 1) (n : ℕ) :
    Cuts K (n + 1) P (n + 1 + n) (casteljau P t n n) := by
  have key : ∀ j ≤ n, Cuts K (n + 1) P (n + 1 + j) (casteljau P t n j) := by
    intro j
    induction j with
    | zero =>
      intro _
      refine .same _ fun i hi => ?_
      unfold casteljau
      rw [show min i (min 0 (n + 0 - i)) = 0 by omega, pow_zero, one_mul, umb_X_pow, Nat.sub_zero]
    | succ j ih =>
      intro hj
      exact .step _ _ _ (ih (by omega)) (casteljau_cut P h0 h1 (by omega))
  exact key n le_rfl

/-- Degree elevation cuts every corner once. -/
theorem elevate_cut (P : ℕ → V) (n : ℕ) :
    CutStep K (n + 1) P (fun i => if i = 0 then P 0 else if i = n + 1 then P n else
      (1 - (i : K) / (n + 1)) • P i + ((i : K) / (n + 1)) • P (i - 1)) := by
  have hn : (0 : K) < n + 1 := by positivity
  refine ⟨fun i => if i ≤ n + 1 then 1 - (i : K) / (n + 1) else 0, fun i => ?_, by simp, ?_,
    fun i hi => ?_⟩
  · dsimp only
    split_ifs with h
    · have h' : (i : K) ≤ n + 1 := by exact_mod_cast h
      have a1 : (i : K) / (n + 1) ≤ 1 := by rw [div_le_one hn]; exact h'
      have a2 : (0 : K) ≤ (i : K) / (n + 1) := by positivity
      constructor <;> linarith
    · exact ⟨le_rfl, zero_le_one⟩
  · dsimp only
    rw [if_pos le_rfl]
    push_cast
    rw [div_self hn.ne', sub_self]
  · dsimp only
    rw [if_pos hi]
    by_cases a : i = 0
    · subst a
      simp
    · rw [if_neg a]
      by_cases b : i = n + 1
      · rw [if_pos b]
        subst b
        push_cast
        rw [div_self hn.ne', sub_self, zero_smul, sub_zero, one_smul, zero_add]
      · rw [if_neg b, sub_sub_cancel]

/-! ### Pieces of B-splines -/

/-- The pieces share one control point of the refined curve. -/
theorem splitPieces_ctrl {c : BSpline K V} {t : K} {d : ℕ} {L : List (BSpline K V)}
    (e : c.splitPieces t d = ok L) :
    ∃ a b m, L = [a, b] ∧ m < c.ctrl.length ∧ a.ctrl = c.ctrl.take (m + 1) ∧
      b.ctrl = c.ctrl.drop m := by
  unfold splitPieces at e
  simp only [seg] at e
  cases e1 : c.locateSpan t with
  | throw x => rw [e1] at e; cases e
  | ub => rw [e1] at e; cases e
  | ok k =>
    rw [e1, ok_bind] at e
    by_cases h : k ≥ d
    · rw [assert_true h, ok_bind] at e
      by_cases h1 : 0 + (k.toNat - d + 1) ≤ c.ctrl.length
      · rw [if_pos h1, ok_bind, if_pos (by omega), ok_bind] at e
        generalize (if 0 + (k.toNat + 1) ≤ c.knots.length then _ else _ : Outcome (List K)) = w1 at e
        cases w1 with
        | throw x => cases e
        | ub => cases e
        | ok w1 =>
          rw [ok_bind] at e
          cases e2 : rd w1 k.toNat with
          | throw x => rw [e2] at e; cases e
          | ub => rw [e2] at e; cases e
          | ok last =>
            rw [e2, ok_bind] at e
            generalize (if k.toNat - d + 1 + _ ≤ c.knots.length then _ else _ : Outcome (List K)) = w2 at e
            cases w2 with
            | throw x => cases e
            | ub => cases e
            | ok w2 =>
              rw [ok_bind] at e
              cases e3 : rd w2 0 with
              | throw x => rw [e3] at e; cases e
              | ub => rw [e3] at e; cases e
              | ok first =>
                rw [e3, ok_bind] at e
                refine ⟨_, _, k.toNat - d, (ok.inj e).symm, by omega, ?_, ?_⟩
                · simp
                · simp only
                  rw [List.take_of_length_le (by simp)]
      · rw [if_neg h1] at e
        cases e
    · rw [Outcome.assert, if_neg h] at e
      cases e

/-! ### Conversion to Bézier pieces -/

theorem raise_finer {eps : K} (heps : 0 ≤ eps) {c c' : BSpline K V} {p : ℕ}
    (hc : WellFormed c p) {t : K} {s : ℕ} (hf : p ≤ s ∨ FirstSpan c p ∨ knot c.knots p < t)
    (h1 : knot c.knots p ≤ t) (h2 : t ≤ knot c.knots c.ctrl.length)
    (e : c.raise eps t p s = ok c') : Finer p c c' := by
  unfold raise at e
  split_ifs at e with h
  · exact (insertKnot_finer heps hc (by rcases hf with hf | hf; omega; exact hf) h1 h2 (by omega) e).1
  · obtain rfl := ok.inj e
    exact Finer.refl hc

theorem bezierKnots_finer {eps : K} (heps : 0 ≤ eps) {p : ℕ} {tMin tMax : K} (xs : List K) :
    ∀ {c c' : BSpline K V}, WellFormed c p → knot c.knots p = tMin →
      knot c.knots c.ctrl.length = tMax → bezierKnots eps tMin tMax p xs c = ok c' →
      Finer p c c' := by
  induction xs with
  | nil =>
    intro c c' hc _ _ e
    obtain rfl := ok.inj e
    exact Finer.refl hc
  | cons x xs ih =>
    intro c c' hc hlo hhi e
    unfold bezierKnots at e
    by_cases h1 : x ≤ tMin
    · rw [if_pos h1] at e
      exact ih hc hlo hhi e
    · rw [if_neg h1] at e
      push Not at h1
      by_cases h2 : x ≥ tMax
      · rw [if_pos h2] at e
        obtain rfl := ok.inj e
        exact Finer.refl hc
      · rw [if_neg h2] at e
        push Not at h2
        obtain ⟨k, -, e⟩ := bind_eq_ok.1 e
        obtain ⟨s, -, e⟩ := bind_eq_ok.1 e
        obtain ⟨c1, e1, e⟩ := bind_eq_ok.1 e
        have F := raise_finer heps hc (by rw [hlo]; exact Or.inr (Or.inr h1)) (by rw [hlo]; exact h1.le)
          (by rw [hhi]; exact h2.le) e1
        exact F.trans (ih F.wf (F.lower.trans hlo) (F.upper.trans hhi) e)

/-- The pieces are spans of a refined curve whose knots in the domain have full multiplicity. -/
theorem toBezier_cuts {eps : K} (heps : 0 ≤ eps) {c : BSpline K V} {p : ℕ} (hc : WellFormed c p)
    (hf : FirstSpan c p ∨ p ≤ c.knots.count (knot c.knots p)) :
    ∃ c' ks bs, Finer p c c' ∧
      c.toBezier eps = ok (ks.map (pieceAt p c'.ctrl), knot c.knots p :: bs) ∧
      Spans c'.knots c'.ctrl.length p (knot c.knots p) ks bs ∧
      ∀ y ∈ c'.knots, knot c.knots p < y → y < knot c.knots c.ctrl.length → p ≤ c'.knots.count y := by
  have hl := hc.len
  have hcl := hc.ctrl
  have hdom := hc.dom
  have hmin : knot c.knots p ∈ c.knots := (mem_knots_iff _ _).mpr ⟨p, by omega, rfl⟩
  have hmax : knot c.knots c.ctrl.length ∈ c.knots :=
    (mem_knots_iff _ _).mpr ⟨c.ctrl.length, by omega, rfl⟩
  have elow : c.locateSpan (knot c.knots p) = ok (p : ℤ) := by
    unfold BSpline.locateSpan
    simp only [degree_eq hc, Int.toNat_natCast]
    rw [assert_true (by omega), ok_bind, rd_knot (by omega), ok_bind, if_pos le_rfl]
  obtain ⟨k, b1, b2, b3, b4, -, -, b5⟩ := locateSpan_spec hc (knot c.knots c.ctrl.length)
    (Or.inr hdom)
  have hk1 := b5 le_rfl
  obtain ⟨c1, e1, I1⟩ := raise_inserted heps hc (t := knot c.knots p)
    (s := c.knots.count (knot c.knots p)) (hf.symm.imp id Or.inl) le_rfl hdom.le (Or.inr rfl)
  have F1 := raise_finer heps hc (hf.symm.imp id Or.inl) le_rfl hdom.le e1
  obtain ⟨R1, h1⟩ := I1.refined hmin
  have hc1max : c1.knots.count (knot c.knots c.ctrl.length)
      = c.knots.count (knot c.knots c.ctrl.length) := by
    rw [I1.count, if_neg hdom.ne', add_zero]
  obtain ⟨c2, e2, I2⟩ := raise_inserted heps R1.wf (t := knot c.knots c.ctrl.length)
    (s := c.knots.count (knot c.knots c.ctrl.length))
    (Or.inr (Or.inr (by rw [R1.lower]; exact hdom))) (by rw [R1.lower]; exact hdom.le)
    (by rw [R1.upper]) (Or.inl R1.upper.symm)
  have F2 := raise_finer heps R1.wf (Or.inr (Or.inr (by rw [R1.lower]; exact hdom)))
    (by rw [R1.lower]; exact hdom.le) (by rw [R1.upper]) e2
  rw [← hc1max] at I2
  obtain ⟨R2, h2⟩ := I2.refined ((R1.mem _).mpr hmax)
  have R12 := R1.trans R2
  obtain ⟨c3, e3, R3, h3⟩ := bezierKnots_spec heps c.knots R12.wf R12.lower R12.upper hc.sorted
    (fun x hx => (R12.mem x).mpr hx)
  have F3 := bezierKnots_finer heps c.knots R12.wf R12.lower R12.upper e3
  have F := (F1.trans F2).trans F3
  have R := R12.trans R3
  obtain ⟨ks, bs, eks, S⟩ := bezierPieces_index (V := V) F.wf.len F.wf.sorted c3.knots.length 0
    (knot c.knots p) (by omega) (by rw [F.lower]) (by rw [F.upper]; exact hdom.le)
    (by simp) (Or.inl F.lower.symm)
  rw [F.upper] at eks
  refine ⟨c3, ks, bs, F, ?_, S, fun y hy g1 g2 => h3 y ((R.mem y).mp hy) g1 g2⟩
  unfold BSpline.toBezier
  simp only [degree_eq hc, Int.toNat_natCast]
  rw [lower_eq hc, ok_bind, upper_eq hc, ok_bind, elow, ok_bind, b1, ok_bind, Int.toNat_natCast,
    multiplicity_count c hc.sorted p (by omega), ok_bind,
    show ((k : ℤ) + 1).toNat = k + 1 by omega,
    multiplicity_count c hc.sorted (k + 1) (by omega), ok_bind, hk1, e1, ok_bind, e2, ok_bind, e3,
    ok_bind]
  simpa using eks c3.ctrl [] [knot c.knots p] rfl

/-- The control points of different spans overlap in at most one point, so that the edges of the
pieces are different edges of the polygon. -/
theorem spans_length {c : BSpline K V} {p : ℕ} (hc : WellFormed c p) (w : ℕ → K)
    (hw : ∀ i, 0 ≤ w i)
    (hmul : ∀ y ∈ c.knots, knot c.knots p < y → y < knot c.knots c.ctrl.length →
      p ≤ c.knots.count y) :
    ∀ (ks : List ℕ) (bs : List K) (cur : K) (s : ℕ), knot c.knots p ≤ cur →
      Spans c.knots c.ctrl.length p cur ks bs → (∀ k, ks.head? = some k → s ≤ k - p) →
      s + 1 ≤ c.ctrl.length →
      (ks.map fun k => ∑ i ∈ range p, w (k - p + i)).sum
        ≤ ∑ i ∈ range (c.ctrl.length - 1 - s), w (s + i)
  | [], [], _, _, _, _, _, _ => by
    simpa using sum_nonneg fun i _ => hw _
  | [], _ :: _, _, _, _, H, _, _ => H.elim
  | _ :: _, [], _, _, _, H, _, _ => H.elim
  | k :: ks, b :: bs, cur, s, hcur, ⟨h1, h2, h3, h4, h5, h6⟩, hs, _ => by
    have hl := hc.len
    have hsk : s ≤ k - p := hs k (by simp)
    have ih := spans_length hc w hw hmul ks bs b k (hcur.trans h5.le) h6 (by
      intro k' hk'
      cases ks with
      | nil => simp at hk'
      | cons k'' ks' =>
        have ek : k'' = k' := by simpa using hk'
        subst ek
        cases bs with
        | nil => exact h6.elim
        | cons b' bs' =>
          obtain ⟨g1, g2, g3, g4, g5, -⟩ := h6
          have hmem : b ∈ c.knots := (mem_knots_iff _ _).2 ⟨k'', by omega, g3⟩
          have hb2 : b < knot c.knots c.ctrl.length :=
            (g5.trans_le (by rw [← g4]; exact knot_mono hc.sorted (by omega) (by omega)))
          have hcnt := hmul b hmem (hcur.trans_lt h5) hb2
          by_contra hcon
          have hkk : k < k'' := by
            by_contra hn
            have := knot_mono hc.sorted (i := k'') (j := k) (by omega) (by omega)
            rw [g3, h3] at this
            exact absurd h5 (not_lt.2 this)
          have := count_block c hc.sorted (k := k'') (by omega) (by rw [g3, g4]; exact g5) k
            (by rw [g3]; omega) hkk.le
          rw [g3, h3] at this
          exact absurd this h5.ne) (by omega)
    rw [List.map_cons, List.sum_cons]
    have e1 : c.ctrl.length - 1 - s = (k - p - s) + (p + (c.ctrl.length - 1 - k)) := by omega
    rw [e1, sum_range_add, sum_range_add]
    have e2 : ∀ i, w (s + (k - p - s + i)) = w (k - p + i) := fun i => by congr 1; omega
    simp only [e2]
    have e4 : ∀ i, w (k - p + (p + i)) = w (k + i) := fun i => by congr 1; omega
    simp only [e4]
    have := sum_nonneg (s := range (k - p - s)) fun i _ => hw (s + i)
    linarith

end NS.BSpline
