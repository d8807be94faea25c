import Verif.Props.BezierPatch
import Verif.Props.Refine

/-!
# C108: subdividing a Bézier patch drives its control net to the patch
-/

set_option linter.unusedSectionVars false

namespace NS.Props

open Outcome Spec Finset BezierPatch Refine

section General

variable {K V : Type} [Field K] [LinearOrder K] [IsStrictOrderedRing K] [FloorRing K]
  [AddCommGroup V] [Module K V]

/-- The second differences of the `(m + 1) x (n + 1)` grid are at most `Du` along the columns and at most `Dv`
along the rows. -/
def NetBends (nrm : V → K) (m n : ℕ) (grid : List V) (Du Dv : K) : Prop :=
  (∀ i j, i + 2 ≤ m → j ≤ n → nrm (gridPoint grid (n + 1) (i + 2) j - gridPoint grid (n + 1) (i + 1) j
    - (gridPoint grid (n + 1) (i + 1) j - gridPoint grid (n + 1) i j)) ≤ Du) ∧
  ∀ i j, i ≤ m → j + 2 ≤ n → nrm (gridPoint grid (n + 1) i (j + 2) - gridPoint grid (n + 1) i (j + 1)
    - (gridPoint grid (n + 1) i (j + 1) - gridPoint grid (n + 1) i j)) ≤ Dv

/-- The point of the cell `(i, j)` of the control net. -/
def cell (n : ℕ) (grid : List V) (i j : ℕ) (s t : K) : V :=
  (1 - s) • ((1 - t) • gridPoint grid (n + 1) i j + t • gridPoint grid (n + 1) i (j + 1))
    + s • ((1 - t) • gridPoint grid (n + 1) (i + 1) j + t • gridPoint grid (n + 1) (i + 1) (j + 1))

/-- Quartering a patch `k` times; a client calling `split(0.5, 0.5)` (BezierPatch.h:414-457) on every piece. -/
def quarter (eps : K) : ℕ → BezierPatch V → Outcome (List (BezierPatch V))
  | 0, p => ok [p]
  | k + 1, p => do
    match ← p.split eps (1 / 2) (1 / 2) with
    | [a, b, c, d] => do
      let a ← quarter eps k a
      let b ← quarter eps k b
      let c ← quarter eps k c
      let d ← quarter eps k d
      ok (a ++ b ++ c ++ d)
    | _ => ub

/-- The same for the points as a function of two indices. -/
def FBends (nrm : V → K) (m n : ℕ) (P : ℕ → ℕ → V) (Du Dv : K) : Prop :=
  (∀ i j, i + 2 ≤ m → j ≤ n → nrm (d2 (fun i => P i j) i) ≤ Du) ∧
  ∀ i j, i ≤ m → j + 2 ≤ n → nrm (d2 (P i) j) ≤ Dv

theorem netBends_iff {nrm : V → K} {p : BezierPatch V} {m n : ℕ} {Du Dv : K} :
    NetBends nrm m n p.grid Du Dv ↔ FBends nrm m n (p.pts n) Du Dv := Iff.rfl

theorem FBends.swap {nrm : V → K} {m n : ℕ} {P : ℕ → ℕ → V} {Du Dv : K} (h : FBends nrm m n P Du Dv) :
    FBends nrm n m (fun j i => P i j) Dv Du :=
  ⟨fun j i h1 h2 => h.2 i j h2 h1, fun j i h1 h2 => h.1 i j h2 h1⟩

theorem FBends.congr {nrm : V → K} {m n : ℕ} {P Q : ℕ → ℕ → V} {Du Dv : K} (h : FBends nrm m n P Du Dv)
    (e : ∀ i < m + 1, ∀ j < n + 1, Q i j = P i j) : FBends nrm m n Q Du Dv := by
  refine ⟨fun i j h1 h2 => ?_, fun i j h1 h2 => ?_⟩
  · have := h.1 i j h1 h2
    simp only [d2] at this ⊢
    rwa [e _ (by omega) _ (by omega), e _ (by omega) _ (by omega), e _ (by omega) _ (by omega)]
  · have := h.2 i j h1 h2
    simp only [d2] at this ⊢
    rwa [e _ (by omega) _ (by omega), e _ (by omega) _ (by omega), e _ (by omega) _ (by omega)]

theorem umb_d2_fun (P : ℕ → ℕ → V) (f : Polynomial K) (i : ℕ) :
    d2 (fun i => umb (P i) f) i = umb (fun j => d2 (fun i => P i j) i) f := by
  simp only [d2]
  rw [umb_sub_fun, umb_sub_fun, umb_sub_fun]

/-- Restricting the first direction. -/
theorem FBends.restrictU {nrm : V → K} (hn : IsSeminorm nrm) {m n : ℕ} {P : ℕ → ℕ → V} {Du Dv : K}
    (h : FBends nrm m n P Du Dv) {a b : K} (ha0 : 0 ≤ a) (ha1 : a ≤ 1) (hb0 : 0 ≤ b) (hb1 : b ≤ 1) :
    FBends nrm m n (fun i j => umb (fun i => P i j) (lin a ^ (m - i) * lin b ^ i)) ((b - a) ^ 2 * Du) Dv := by
  refine ⟨fun i j h1 h2 => d2_sub_le hn ha0 ha1 hb0 hb1 (fun k hk => h.1 k j hk h2) h1, fun i j h1 h2 => ?_⟩
  rw [umb_d2_fun (fun j i => P i j)]
  exact blossom_le hn ha0 ha1 hb0 hb1 _ _ fun k hk => h.2 k j (by omega) h2

theorem FBends.restrictV {nrm : V → K} (hn : IsSeminorm nrm) {m n : ℕ} {P : ℕ → ℕ → V} {Du Dv : K}
    (h : FBends nrm m n P Du Dv) {a b : K} (ha0 : 0 ≤ a) (ha1 : a ≤ 1) (hb0 : 0 ≤ b) (hb1 : b ≤ 1) :
    FBends nrm m n (fun i j => umb (P i) (lin a ^ (n - j) * lin b ^ j)) Du ((b - a) ^ 2 * Dv) :=
  (h.swap.restrictU hn ha0 ha1 hb0 hb1).swap

/-- The patch and its net at the same parameters. -/
theorem part_net {nrm : V → K} (hn : IsSeminorm nrm) {m n : ℕ} {P : ℕ → ℕ → V} {Du Dv : K} (hu : 0 ≤ Du)
    (hv : 0 ≤ Dv) (h : FBends nrm m n P Du Dv) {i j : ℕ} (hi : i < m) (hj : j < n) {s t : K} (s0 : 0 ≤ s)
    (s1 : s ≤ 1) (t0 : 0 ≤ t) (t1 : t ≤ 1) :
    nrm (part m n P 0 0 ((i + s) / m) ((j + t) / n)
      - ((1 - s) • ((1 - t) • P i j + t • P i (j + 1))
        + s • ((1 - t) • P (i + 1) j + t • P (i + 1) (j + 1)))) ≤ m / 8 * Du + n / 8 * Dv := by
  have hm0 : (0 : K) < m := by exact_mod_cast (by omega : 0 < m)
  have hn0 : (0 : K) < n := by exact_mod_cast (by omega : 0 < n)
  set u := ((i : K) + s) / m with hu'
  set v := ((j : K) + t) / n with hv'
  have eu : (m : K) * u = i + s := by rw [hu']; field_simp
  have ev : (n : K) * v = j + t := by rw [hv']; field_simp
  have hjn : (j : K) + 1 ≤ n := by exact_mod_cast hj
  have hj0 : (0 : K) ≤ j := Nat.cast_nonneg _
  have v0 : 0 ≤ v := by rw [hv']; positivity
  have v1 : v ≤ 1 := by rw [hv', div_le_one hn0]; linarith
  rw [part_zero]
  have A := polygon_dist hn hu (P := fun i => umb (P i) (lin v ^ n)) hi (fun k hk => by
      rw [umb_d2_fun]
      have := blossom_le hn (P := fun j => d2 (fun i => P i j) k) v0 v1 v0 v1 0 n fun j hj => h.1 k j hk (by omega)
      simpa using this) (t := u) (by rw [eu]; linarith) (by rw [eu]; linarith)
  rw [eu] at A
  have B : ∀ k ≤ m, nrm (umb (P k) (lin v ^ n) - (P k j + t • (P k (j + 1) - P k j))) ≤ n / 8 * Dv := by
    intro k hk
    have := polygon_dist hn hv (P := P k) hj (fun l hl => h.2 k l hk hl) (t := v) (by rw [ev]; linarith)
      (by rw [ev]; linarith)
    rw [ev, add_sub_cancel_left] at this
    exact this
  have e : umb (fun i => umb (P i) (lin v ^ n)) (lin u ^ m)
      - ((1 - s) • ((1 - t) • P i j + t • P i (j + 1)) + s • ((1 - t) • P (i + 1) j + t • P (i + 1) (j + 1)))
      = (umb (fun i => umb (P i) (lin v ^ n)) (lin u ^ m)
          - (umb (P i) (lin v ^ n) + ((i : K) + s - i) • (umb (P (i + 1)) (lin v ^ n) - umb (P i) (lin v ^ n))))
        + ((1 - s) • (umb (P i) (lin v ^ n) - (P i j + t • (P i (j + 1) - P i j)))
          + s • (umb (P (i + 1)) (lin v ^ n) - (P (i + 1) j + t • (P (i + 1) (j + 1) - P (i + 1) j)))) := by
    rw [add_sub_cancel_left]
    module
  rw [e]
  refine (hn.tri _ _).trans (add_le_add A ((hn.tri _ _).trans ?_))
  rw [hn.smul, hn.smul, abs_of_nonneg (sub_nonneg.2 s1), abs_of_nonneg s0]
  have b1 := mul_le_mul_of_nonneg_left (B i hi.le) (sub_nonneg.2 s1)
  have b2 := mul_le_mul_of_nonneg_left (B (i + 1) hi) s0
  linarith

/-- **C108** (the net): the patch is within an eighth of the degree times the second differences, added over both
directions, of its control net at the same parameters. -/
theorem C108_net {nrm : V → K} (hn : IsSeminorm nrm) {p : BezierPatch V} (hp : p.init = ok ()) {m n : ℕ}
    (hm : p.degU = m) (hn' : p.degV = n) (pu : p.perU = false) (pv : p.perV = false) {Du Dv : K} (hu : 0 ≤ Du)
    (hv : 0 ≤ Dv) (h : NetBends nrm m n p.grid Du Dv) {i j : ℕ} (hi : i < m) (hj : j < n) {s t : K} (s0 : 0 ≤ s)
    (s1 : s ≤ 1) (t0 : 0 ≤ t) (t1 : t ≤ 1) :
    ∃ x, p.evaluate ((i + s) / m : K) ((j + t) / n) = ok x ∧
      nrm (x - cell n p.grid i j s t) ≤ m / 8 * Du + n / 8 * Dv := by
  have hw := wf_of_init hp
  rw [hm, hn'] at hw
  exact ⟨_, hw.evaluate (by rw [pu]; rfl) (by rw [pv]; rfl), part_net hn hu hv h hi hj s0 s1 t0 t1⟩

theorem pts_ofGridOf {m n i j : ℕ} (sU sV : ℤ) (Q : ℕ → ℕ → V) (hi : i < m + 1) (hj : j < n + 1) :
    (ofGrid sU sV (gridOf (m + 1) (n + 1) Q)).pts n i j = Q i j := pts_gridOf Q _ rfl hi hj

/-- **C108** (one split): `split_u` at `u` multiplies the second differences along `u` by at most `u²` and
`(1 - u)²` and does not increase those along `v`. -/
theorem C108_split_u {nrm : V → K} (hn : IsSeminorm nrm) {eps : K} (he : 0 ≤ eps) {p : BezierPatch V}
    (hp : p.init = ok ()) {m n : ℕ} (hm : p.degU = m) (hn' : p.degV = n) {Du Dv : K}
    (h : NetBends nrm m n p.grid Du Dv) {u : K} (u0 : 0 < u) (u1 : u < 1) :
    ∃ A B, p.splitU eps u = ok [A, B] ∧ NetBends nrm m n A.grid (u ^ 2 * Du) Dv ∧
      NetBends nrm m n B.grid ((1 - u) ^ 2 * Du) Dv := by
  have hw := wf_of_init hp
  rw [hm, hn', Int.toNat_natCast, Int.toNat_natCast] at hw
  refine ⟨_, _, hw.splitU he u0 u1, ?_, ?_⟩
  · rw [netBends_iff]
    have := (netBends_iff.1 h).restrictU hn le_rfl zero_le_one u0.le u1.le
    rw [sub_zero] at this
    refine this.congr fun i hi j hj => ?_
    rw [pts_ofGridOf _ _ _ hi hj, lin_zero, one_pow, one_mul]
  · rw [netBends_iff]
    refine ((netBends_iff.1 h).restrictU hn u0.le u1.le zero_le_one le_rfl).congr fun i hi j hj => ?_
    rw [pts_ofGridOf _ _ _ hi hj, lin_one]

/-- **C108** (one split): the same for `split_v`. -/
theorem C108_split_v {nrm : V → K} (hn : IsSeminorm nrm) {eps : K} (he : 0 ≤ eps) {p : BezierPatch V}
    (hp : p.init = ok ()) {m n : ℕ} (hm : p.degU = m) (hn' : p.degV = n) {Du Dv : K}
    (h : NetBends nrm m n p.grid Du Dv) {v : K} (v0 : 0 < v) (v1 : v < 1) :
    ∃ A B, p.splitV eps v = ok [A, B] ∧ NetBends nrm m n A.grid Du (v ^ 2 * Dv) ∧
      NetBends nrm m n B.grid Du ((1 - v) ^ 2 * Dv) := by
  have hw := wf_of_init hp
  rw [hm, hn', Int.toNat_natCast, Int.toNat_natCast] at hw
  refine ⟨_, _, hw.splitV he v0 v1, ?_, ?_⟩
  · rw [netBends_iff]
    have := (netBends_iff.1 h).restrictV hn le_rfl zero_le_one v0.le v1.le
    rw [sub_zero] at this
    refine this.congr fun i hi j hj => ?_
    rw [pts_ofGridOf _ _ _ hi hj, lin_zero, one_pow, one_mul]
  · rw [netBends_iff]
    refine ((netBends_iff.1 h).restrictV hn v0.le v1.le zero_le_one le_rfl).congr fun i hi j hj => ?_
    rw [pts_ofGridOf _ _ _ hi hj, lin_one]

/-- Quarters of a patch: pieces, their nets and the part of the patch they are. -/
theorem split_spec {nrm : V → K} (hn : IsSeminorm nrm) {eps : K} (he : 0 ≤ eps) {p : BezierPatch V}
    (hp : PieceOk p p) {m n : ℕ} (hm : p.degU = m) (hn' : p.degV = n) {Du Dv : K}
    (h : NetBends nrm m n p.grid Du Dv) :
    ∃ A B C D, p.split eps (1 / 2) (1 / 2) = ok [A, B, C, D] ∧ ∀ a b : ℕ, a < 2 → b < 2 →
      ∃ q, q = (if a = 0 then if b = 0 then A else B else if b = 0 then C else D) ∧ PieceOk p q ∧
        NetBends nrm m n q.grid (Du / 4) (Dv / 4) ∧
        ∀ s t : K, q.evaluate s t = p.evaluate ((a + s) / 2) ((b + t) / 2) := by
  have h0 : (0 : K) < 1 / 2 := by norm_num
  have h1 : (1 / 2 : K) < 1 := by norm_num
  obtain ⟨A, B, C, D, e, oA, oB, oC, oD, H⟩ := C30_split_partial he hp.1 hp.2.2.2.1 h0 h1 h0 h1
  obtain ⟨L, R, eU, bL, bR⟩ := C108_split_u hn he hp.1 hm hn' h h0 h1
  obtain ⟨L', R', eU', oL, oR, -⟩ := C30_split_u_partial he hp.1 hp.2.2.2.1 h0 h1
  rw [eU] at eU'
  obtain ⟨rfl, rfl⟩ : L = L' ∧ R = R' := by simpa using ok.inj eU'
  obtain ⟨A', B', eL, bA, bB⟩ := C108_split_v hn he oL.1 (oL.2.1.trans hm) (oL.2.2.1.trans hn') bL h0 h1
  obtain ⟨C', D', eR, bC, bD⟩ := C108_split_v hn he oR.1 (oR.2.1.trans hm) (oR.2.2.1.trans hn') bR h0 h1
  have e' : p.split eps (1 / 2) (1 / 2) = ok [A', B', C', D'] := by
    unfold BezierPatch.split
    rw [isEndpoint_false h0 h1]
    simp only [Bool.false_and, Bool.false_eq_true, if_false]
    rw [eU]
    simp only [ok_bind, rd, List.getElem?_cons_zero, List.getElem?_cons_succ, eL, eR]
    rfl
  rw [e] at e'
  obtain ⟨rfl, rfl, rfl, rfl⟩ : A = A' ∧ B = B' ∧ C = C' ∧ D = D' := by simpa using ok.inj e'
  have q1 : ∀ x : K, (1 / 2) ^ 2 * x = x / 4 := fun x => by ring
  have q2 : ∀ x : K, (1 - 1 / 2) ^ 2 * x = x / 4 := fun x => by ring
  rw [q1, q1] at bA
  rw [q1, q2] at bB
  rw [q2, q1] at bC
  rw [q2, q2] at bD
  have fp : flat p = p := flat_eq hp.2.2.2.2.1 hp.2.2.2.2.2
  rw [fp] at H
  refine ⟨A, B, C, D, e, fun a b ha hb => ⟨_, rfl, ?_⟩⟩
  interval_cases a <;> interval_cases b <;> simp only [if_true, one_ne_zero, if_false]
  · refine ⟨oA, bA, fun s t => ?_⟩
    rw [(H s t).1]; congr 1 <;> push_cast <;> ring
  · refine ⟨oB, bB, fun s t => ?_⟩
    rw [(H s t).2.1]; congr 1 <;> push_cast <;> ring
  · refine ⟨oC, bC, fun s t => ?_⟩
    rw [(H s t).2.2.1]; congr 1 <;> push_cast <;> ring
  · refine ⟨oD, bD, fun s t => ?_⟩
    rw [(H s t).2.2.2]; congr 1 <;> push_cast <;> ring

/-- The piece over the square `(a, b)` of the grid of `2^k x 2^k` squares. -/
def Over (p : BezierPatch V) (k : ℕ) (q : BezierPatch V) (a b : ℕ) : Prop :=
  ∀ s t : K, q.evaluate s t = p.evaluate ((a + s) / 2 ^ k) ((b + t) / 2 ^ k)

theorem quarter_spec {nrm : V → K} (hn : IsSeminorm nrm) {eps : K} (he : 0 ≤ eps) (k : ℕ) {p : BezierPatch V}
    (hp : PieceOk p p) {m n : ℕ} (hm : p.degU = m) (hn' : p.degV = n) {Du Dv : K}
    (h : NetBends nrm m n p.grid Du Dv) :
    ∃ L, quarter eps k p = ok L ∧ L.length = 4 ^ k ∧
      (∀ q ∈ L, PieceOk p q ∧ NetBends nrm m n q.grid (Du / 4 ^ k) (Dv / 4 ^ k) ∧
        ∃ a < 2 ^ k, ∃ b < 2 ^ k, Over (K := K) p k q a b) ∧
      ∀ a < 2 ^ k, ∀ b < 2 ^ k, ∃ q ∈ L, Over (K := K) p k q a b := by
  induction k generalizing p Du Dv with
  | zero =>
    have hO : Over (K := K) p 0 p 0 0 := by intro s t; simp
    refine ⟨[p], rfl, rfl, fun q hq => ?_, fun a ha b hb => ?_⟩
    · obtain rfl : q = p := by simpa using hq
      exact ⟨hp, by simpa using h, 0, by simp, 0, by simp, hO⟩
    · obtain rfl : a = 0 := by simpa using ha
      obtain rfl : b = 0 := by simpa using hb
      exact ⟨p, by simp, hO⟩
  | succ k ih =>
    obtain ⟨A, B, C, D, e, H⟩ := split_spec hn he hp hm hn' h
    have Q : ∀ a b : ℕ, a < 2 → b < 2 → ∀ q, q = (if a = 0 then if b = 0 then A else B else if b = 0 then C else D) →
        ∃ L, quarter eps k q = ok L ∧ L.length = 4 ^ k ∧
          (∀ r ∈ L, PieceOk p r ∧ NetBends nrm m n r.grid (Du / 4 ^ (k + 1)) (Dv / 4 ^ (k + 1)) ∧
            ∃ a < 2 ^ (k + 1), ∃ b < 2 ^ (k + 1), Over (K := K) p (k + 1) r a b) ∧
          ∀ a' < 2 ^ k, ∀ b' < 2 ^ k, ∃ r ∈ L, Over (K := K) p (k + 1) r (a * 2 ^ k + a') (b * 2 ^ k + b') := by
      intro a b ha hb q hq
      obtain ⟨q', hq', oq, bq, vq⟩ := H a b ha hb
      rw [← hq] at hq'
      subst hq'
      obtain ⟨L, e1, e2, e3, e4⟩ := ih ⟨oq.1, rfl, rfl, oq.2.2.2⟩ (oq.2.1.trans hm) (oq.2.2.1.trans hn') bq
      have tr : ∀ {r : BezierPatch V} {a' b' : ℕ}, Over (K := K) q' k r a' b' →
          Over (K := K) p (k + 1) r (a * 2 ^ k + a') (b * 2 ^ k + b') := by
        intro r a' b' ho s t
        rw [ho, vq]
        congr 1 <;> push_cast <;> field_simp <;> ring
      have lt : ∀ {x y : ℕ}, x < 2 → y < 2 ^ k → x * 2 ^ k + y < 2 ^ (k + 1) := by
        intro x y hx hy
        rw [pow_succ]
        have : x * 2 ^ k ≤ 1 * 2 ^ k := Nat.mul_le_mul_right _ (by omega)
        omega
      refine ⟨L, e1, e2, fun r hr => ?_, fun a' ha' b' hb' => ?_⟩
      · obtain ⟨o, bb, a', ha', b', hb', ho⟩ := e3 r hr
        refine ⟨⟨o.1, o.2.1.trans oq.2.1, o.2.2.1.trans oq.2.2.1, o.2.2.2⟩, ?_, _, lt ha ha', _, lt hb hb', tr ho⟩
        rw [pow_succ', ← div_div, ← div_div]
        exact bb
      · obtain ⟨r, hr, ho⟩ := e4 a' ha' b' hb'
        exact ⟨r, hr, tr ho⟩
    obtain ⟨LA, a1, a2, a3, a4⟩ := Q 0 0 (by omega) (by omega) A rfl
    obtain ⟨LB, b1, b2, b3, b4⟩ := Q 0 1 (by omega) (by omega) B rfl
    obtain ⟨LC, c1, c2, c3, c4⟩ := Q 1 0 (by omega) (by omega) C rfl
    obtain ⟨LD, d1, d2, d3, d4⟩ := Q 1 1 (by omega) (by omega) D rfl
    refine ⟨LA ++ LB ++ LC ++ LD, ?_, ?_, fun r hr => ?_, fun a ha b hb => ?_⟩
    · simp only [quarter, e, ok_bind, a1, b1, c1, d1]
    · simp only [List.length_append, a2, b2, c2, d2, pow_succ]; ring
    · simp only [List.mem_append] at hr
      rcases hr with ((hr | hr) | hr) | hr
      exacts [a3 r hr, b3 r hr, c3 r hr, d3 r hr]
    · rw [pow_succ] at ha hb
      have half : ∀ x, x < 2 ^ k * 2 → ∃ y < 2, ∃ z < 2 ^ k, x = y * 2 ^ k + z := by
        intro x hx
        refine ⟨x / 2 ^ k, (Nat.div_lt_iff_lt_mul (by positivity)).2 (by rwa [mul_comm]), x % 2 ^ k,
          Nat.mod_lt _ (by positivity), ?_⟩
        rw [mul_comm]
        exact (Nat.div_add_mod x (2 ^ k)).symm
      obtain ⟨y, hy, z, hz, rfl⟩ := half a ha
      obtain ⟨y', hy', z', hz', rfl⟩ := half b hb
      interval_cases y <;> interval_cases y'
      · obtain ⟨r, hr, ho⟩ := a4 z hz z' hz'
        exact ⟨r, by simp [hr], ho⟩
      · obtain ⟨r, hr, ho⟩ := b4 z hz z' hz'
        exact ⟨r, by simp [hr], ho⟩
      · obtain ⟨r, hr, ho⟩ := c4 z hz z' hz'
        exact ⟨r, by simp [hr], ho⟩
      · obtain ⟨r, hr, ho⟩ := d4 z hz z' hz'
        exact ⟨r, by simp [hr], ho⟩

/-- **C108** (subdivision): quartering a patch of fixed degrees `k` times gives `4^k` patches, one over every square
of the grid of side `2^-k`, whose nets are within a `4^k`-th of the distance of the net of the whole patch. -/
theorem C108_subdivision {nrm : V → K} (hn : IsSeminorm nrm) {eps : K} (he : 0 ≤ eps) (k : ℕ) {p : BezierPatch V}
    (hp : p.init = ok ()) (hs : Static p) {m n : ℕ} (hm : p.degU = m) (hn' : p.degV = n) (pu : p.perU = false)
    (pv : p.perV = false) {Du Dv : K} (hu : 0 ≤ Du) (hv : 0 ≤ Dv) (h : NetBends nrm m n p.grid Du Dv) :
    ∃ L, quarter eps k p = ok L ∧ L.length = 4 ^ k ∧
      (∀ a < 2 ^ k, ∀ b < 2 ^ k, ∃ q ∈ L, Over (K := K) p k q a b) ∧
      ∀ q ∈ L, ∃ a < 2 ^ k, ∃ b < 2 ^ k, Over (K := K) p k q a b ∧
        ∀ i < m, ∀ j < n, ∀ s t : K, 0 ≤ s → s ≤ 1 → 0 ≤ t → t ≤ 1 →
          ∃ x, p.evaluate ((a + (i + s) / m) / 2 ^ k) ((b + (j + t) / n) / 2 ^ k) = ok x ∧
            nrm (x - cell n q.grid i j s t) ≤ (m / 8 * Du + n / 8 * Dv) / 4 ^ k := by
  obtain ⟨L, e1, e2, e3, e4⟩ := quarter_spec hn he k ⟨hp, rfl, rfl, hs, pu, pv⟩ hm hn' h
  refine ⟨L, e1, e2, e4, fun q hq => ?_⟩
  obtain ⟨o, bb, a, ha, b, hb, ho⟩ := e3 q hq
  refine ⟨a, ha, b, hb, ho, fun i hi j hj s t s0 s1 t0 t1 => ?_⟩
  obtain ⟨x, hx, hd⟩ := C108_net hn o.1 (o.2.1.trans hm) (o.2.2.1.trans hn') o.2.2.2.2.1 o.2.2.2.2.2
    (by positivity) (by positivity) bb hi hj s0 s1 t0 t1
  refine ⟨x, by rw [← ho, hx], hd.trans (le_of_eq ?_)⟩
  ring

/-- **C108** (convergence): the nets of the quarters come arbitrarily close to the patch. -/
theorem C108_converges {nrm : V → K} (hn : IsSeminorm nrm) {eps : K} (he : 0 ≤ eps) {p : BezierPatch V}
    (hp : p.init = ok ()) (hs : Static p) {m n : ℕ} (hm : p.degU = m) (hn' : p.degV = n) (pu : p.perU = false)
    (pv : p.perV = false) {ε : K} (hε : 0 < ε) :
    ∃ k0, ∀ k ≥ k0, ∃ L, quarter eps k p = ok L ∧ L.length = 4 ^ k ∧
      ∀ q ∈ L, ∃ a : ℕ, a < 2 ^ k ∧ ∃ b : ℕ, b < 2 ^ k ∧ ∀ i < m, ∀ j < n, ∀ s t : K, 0 ≤ s → s ≤ 1 → 0 ≤ t → t ≤ 1 →
        ∃ x, p.evaluate ((a + (i + s) / m) / 2 ^ k) ((b + (j + t) / n) / 2 ^ k) = ok x ∧
          nrm (x - cell n q.grid i j s t) < ε := by
  obtain ⟨D, hD, h⟩ : ∃ D, 0 ≤ D ∧ NetBends nrm m n p.grid D D := by
    set f : ℕ × ℕ → K := fun x => nrm (d2 (fun i => p.pts n i x.2) x.1) + nrm (d2 (p.pts n x.1) x.2) with hf
    have f0 : ∀ x, 0 ≤ f x := fun x => add_nonneg (BSpline.nrm_nonneg hn _) (BSpline.nrm_nonneg hn _)
    have le : ∀ i j, i ≤ m → j ≤ n → f (i, j) ≤ ∑ x ∈ range (m + 1) ×ˢ range (n + 1), f x := fun i j hi hj =>
      single_le_sum (fun x _ => f0 x) (by simp; omega)
    refine ⟨∑ x ∈ range (m + 1) ×ˢ range (n + 1), f x, sum_nonneg fun x _ => f0 x, netBends_iff.2 ⟨?_, ?_⟩⟩
    · intro i j h1 h2
      exact (le_add_of_nonneg_right (BSpline.nrm_nonneg hn _)).trans (le i j (by omega) h2)
    · intro i j h1 h2
      exact (le_add_of_nonneg_left (BSpline.nrm_nonneg hn _)).trans (le i j h1 (by omega))
  obtain ⟨k0, hk0⟩ := exists_nat_gt (((m : K) / 8 * D + n / 8 * D) / ε)
  refine ⟨k0, fun k hk => ?_⟩
  obtain ⟨L, e1, e2, -, e3⟩ := C108_subdivision hn he k hp hs hm hn' pu pv hD hD h
  refine ⟨L, e1, e2, fun q hq => ?_⟩
  obtain ⟨a, ha, b, hb, -, H⟩ := e3 q hq
  refine ⟨a, ha, b, hb, fun i hi j hj s t s0 s1 t0 t1 => ?_⟩
  obtain ⟨x, hx, hd⟩ := H i hi j hj s t s0 s1 t0 t1
  refine ⟨x, hx, hd.trans_lt ?_⟩
  have h4 : (k0 : K) < 4 ^ k := by
    have : k < 4 ^ k := Nat.lt_pow_self (by norm_num)
    exact_mod_cast lt_of_le_of_lt hk this
  rw [div_lt_iff₀ (by positivity)]
  rw [div_lt_iff₀ hε] at hk0
  nlinarith

end General

/-- A bicubic-by-quadratic patch over the plane: a bump. -/
def exBump : BezierPatch ℚ :=
  { grid := [0, 0, 0, 0, 0, 8, 8, 0, 0, 0, 0, 0], degU := 2, degV := 3, sU := 2, sV := 3 }

theorem exBump_bends : NetBends (fun x : ℚ => |x|) 2 3 exBump.grid 16 8 := by
  refine ⟨fun i j h1 h2 => ?_, fun i j h1 h2 => ?_⟩
  · obtain rfl : i = 0 := by omega
    interval_cases j <;> decide +kernel
  · have : j ≤ 1 := by omega
    interval_cases i <;> interval_cases j <;> decide +kernel

example := C108_net abs_isSeminorm (p := exBump) (by decide +kernel) rfl rfl rfl rfl (by norm_num) (by norm_num) exBump_bends
  (i := 1) (j := 2) (by decide) (by decide) (s := 1 / 3) (t := 1) (by norm_num) (by norm_num) (by norm_num) (by norm_num)

example := C108_split_u abs_isSeminorm (eps := (1 / 1000 : ℚ)) (by norm_num) (p := exBump) (by decide +kernel) rfl rfl
  exBump_bends (u := 1 / 3) (by norm_num) (by norm_num)

example := C108_split_v abs_isSeminorm (eps := (1 / 1000 : ℚ)) (by norm_num) (p := exBump) (by decide +kernel) rfl rfl
  exBump_bends (v := 1 / 3) (by norm_num) (by norm_num)

example := C108_converges abs_isSeminorm (eps := (1 / 1000 : ℚ)) (by norm_num) (p := exBump) (by decide +kernel)
  ⟨rfl, rfl⟩ rfl rfl rfl rfl (ε := 1 / 100) (by norm_num)

example : ∃ L, quarter (1 / 1000 : ℚ) 3 exBump = ok L ∧ L.length = 64 ∧ ∀ q ∈ L, ∃ a < 8, ∃ b < 8,
    ∀ i < 2, ∀ j < 3, ∀ s t : ℚ, 0 ≤ s → s ≤ 1 → 0 ≤ t → t ≤ 1 →
      ∃ x, exBump.evaluate (((a : ℕ) + ((i : ℕ) + s) / (2 : ℕ)) / 2 ^ 3) (((b : ℕ) + ((j : ℕ) + t) / (3 : ℕ)) / 2 ^ 3) = ok x ∧
        |x - cell 3 q.grid i j s t| ≤ 7 / 64 := by
  obtain ⟨L, h1, h2, -, h3⟩ := C108_subdivision (nrm := fun x : ℚ => |x|) abs_isSeminorm
    (eps := (1 / 1000 : ℚ)) (by norm_num) 3 (p := exBump) (by decide +kernel) ⟨rfl, rfl⟩ (m := 2) (n := 3) rfl rfl
    rfl rfl (by norm_num) (by norm_num) exBump_bends
  refine ⟨L, h1, h2, fun q hq => ?_⟩
  obtain ⟨a, ha, b, hb, -, H⟩ := h3 q hq
  refine ⟨a, ha, b, hb, fun i hi j hj s t s0 s1 t0 t1 => ?_⟩
  obtain ⟨x, hx, hd⟩ := H i hi j hj s t s0 s1 t0 t1
  exact ⟨x, hx, hd.trans (by norm_num)⟩

/-- The net of the undivided patch is not that close. -/
example : ∃ x, exBump.evaluate ((1 + 0) / 2 : ℚ) ((1 + 0) / 3) = ok x ∧
    ¬ |x - cell 3 exBump.grid 1 1 (0 : ℚ) 0| ≤ 7 / 64 := by
  refine ⟨8 / 3, by decide +kernel, by decide +kernel⟩

end NS.Props
