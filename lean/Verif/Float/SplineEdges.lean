import Verif.Float.SplineProps
import Verif.Float.SortingProps

/-!
# C111: splines and non-finite numbers
-/

namespace Verif.Float.Spline

open X64 Nan Verif.Float.Sorting
open Verif.Math.BSpline (Spline N N_nonneg N_support N_zero N_sum knot_mono C39_value addPoint_inv)
open Verif.Float.Laws (one_fin le_fin)

deriving instance DecidableEq for X64
deriving instance DecidableEq for Except

/-- **C111**: `new` on finite numbers fails exactly when the numbers of knots and of control points do not fit the degree, and otherwise sorts the knots. -/
theorem C111_new {S : ∀ n, Sorter n} (hS : ∀ n, (S n).Correct) (knots ctrl : List F64) (degree : ℕ) :
    (knots.length ≠ ctrl.length + degree + 1 → new S (knots.map fin) (ctrl.map fin) degree = some none) ∧
    (knots.length = ctrl.length + degree + 1 → ∃ D : Data, new S (knots.map fin) (ctrl.map fin) degree = some (some D.spline) ∧ D.Valid ∧
      D.knots.Perm knots ∧ D.ctrl = ctrl ∧ D.degree = degree) := by
  unfold new splineKnots
  simp only [List.length_map]
  refine ⟨fun h => by rw [if_pos h]; rfl, fun h => ?_⟩
  rw [if_neg (not_not.2 h)]
  obtain ⟨ys, h1, h2, h3⟩ := C103_sorts hS (id : X64 → X64) (knots.map fin) (by
    intro x hx
    obtain ⟨a, -, rfl⟩ := List.mem_map.1 hx
    simp)
  have hys : ∃ ts : List F64, ys = ts.map fin := by
    have : ∀ y ∈ ys, ∃ a : F64, y = fin a := by
      intro y hy
      obtain ⟨a, -, rfl⟩ := List.mem_map.1 (h2.mem_iff.1 hy)
      exact ⟨a, rfl⟩
    clear h1 h2 h3
    induction ys with
    | nil => exact ⟨[], rfl⟩
    | cons y ys ih =>
      obtain ⟨a, rfl⟩ := this y (by simp)
      obtain ⟨ts, rfl⟩ := ih fun y hy => this y (by simp [hy])
      exact ⟨a :: ts, rfl⟩
  obtain ⟨ts, rfl⟩ := hys
  rw [h1]
  have hinj : Function.Injective fin := fun a b h => by cases h; rfl
  have hperm : ts.Perm knots := (List.map_perm_map_iff hinj).1 h2
  refine ⟨⟨ts, ctrl, degree⟩, rfl, ⟨?_, by rw [hperm.length_eq, h]⟩, hperm, rfl, rfl⟩
  rw [List.pairwise_map] at h3
  refine h3.imp fun {a b} hab => ?_
  simpa [value] using hab

/-- **C111**: adding a finite point keeps the knots in order and the numbers of knots and of control points fitting. -/
theorem C111_add_point {D : Data} (hD : D.Valid) (x y : F64) :
    ∃ D' : Data, addPoint D.spline (fin x) (fin y) = D'.spline ∧ D'.Valid ∧ D'.knots.Perm (x :: D.knots) ∧ D'.ctrl = D.ctrl ++ [y] ∧
      D'.degree = D.degree ∧ D'.exact = D.exact.addPoint x.val y.val := by
  have hk : ∀ ks : List F64, partitionPoint (ks.map fin) (fin x) = (ks.takeWhile fun k => k.val < x.val).length ∧
      Verif.Math.partitionPoint (ks.map F64.val) x.val = (ks.takeWhile fun k => k.val < x.val).length := by
    intro ks
    unfold partitionPoint Verif.Math.partitionPoint
    rw [List.takeWhile_map, List.takeWhile_map, List.length_map, List.length_map]
    exact ⟨rfl, rfl⟩
  have hle : (D.knots.takeWhile fun k => decide (k.val < x.val)).length ≤ D.knots.length := (List.takeWhile_sublist _).length_le
  set D' : Data := ⟨D.knots.insertIdx (D.knots.takeWhile fun k => decide (k.val < x.val)).length x, D.ctrl ++ [y], D.degree⟩ with hD'
  have he : D'.exact = D.exact.addPoint x.val y.val := by
    rw [hD']
    unfold Data.exact Verif.Math.BSpline.Spline.addPoint
    simp only [(hk D.knots).2, List.map_append, List.map_cons, List.map_nil, List.map_insertIdx]
  refine ⟨D', ?_, ?_, List.perm_insertIdx _ _ hle, rfl, rfl, he⟩
  · rw [hD']
    unfold addPoint Data.spline
    simp only [(hk D.knots).1, List.map_append, List.map_cons, List.map_nil, List.map_insertIdx]
  · have h := addPoint_inv hD.inv x.val y.val
    rw [← he] at h
    refine ⟨?_, ?_⟩
    · have := h.sorted
      unfold Data.exact at this
      rwa [List.pairwise_map] at this
    · simpa [Data.exact] using h.len

/-- **C111**: a point that is infinite or NaN is refused. -/
theorem C111_point_not_finite {D : Data} (hD : D.Valid) {p : X64} (hp : ∀ a, p ≠ fin a) : interpolate D.spline p = some (.error ()) := by
  have hl := hD.len
  obtain ⟨a, -, a1, a2⟩ := knot_at D (show D.degree < D.knots.length by omega)
  obtain ⟨b, -, b1, b2⟩ := knot_at D (show D.ctrl.length < D.knots.length by omega)
  unfold interpolate Data.spline
  simp only [a1, Option.bind_eq_bind, Option.bind_some, List.length_map]
  rw [show D.knots.length - D.degree - 1 = D.ctrl.length by omega, b1]
  cases p with
  | fin a => exact absurd rfl (hp a)
  | nan => rfl
  | inf s =>
    cases s with
    | true => rfl
    | false =>
      rw [if_pos (by rfl), if_neg (by omega)]
      rfl

theorem sumFrom_nan (ts : List X64) (p : X64) (d i : ℕ) (cs : List X64) {r : X64} (h : sumFrom ts p d i cs nan = some r) : r = nan := by
  induction cs generalizing i with
  | nil => unfold sumFrom at h; cases h; rfl
  | cons c cs ih =>
    unfold sumFrom at h
    cases hn : cox ts p d i with
    | none => rw [hn] at h; simp at h
    | some n =>
      rw [hn] at h
      simp only [Option.bind_eq_bind, Option.bind_some, X64.nan_add] at h
      exact ih (i + 1) h

/-- A term that is NaN makes the sum NaN. -/
theorem sumFrom_term (ts : List X64) (p : X64) (d i : ℕ) (cs : List X64) (acc : X64) {r c : X64} {k : ℕ} (hk : cs[k]? = some c)
    (hn : ∀ n, cox ts p d (i + k) = some n → n.mul c = nan) (h : sumFrom ts p d i cs acc = some r) : r = nan := by
  induction cs generalizing i acc k with
  | nil => simp at hk
  | cons c' cs ih =>
    unfold sumFrom at h
    cases hx : cox ts p d i with
    | none => rw [hx] at h; simp at h
    | some n =>
      rw [hx] at h
      simp only [Option.bind_eq_bind, Option.bind_some] at h
      cases k with
      | zero =>
        simp only [List.getElem?_cons_zero, Option.some.injEq] at hk
        subst hk
        rw [hn n (by simpa using hx), X64.add_nan] at h
        exact sumFrom_nan _ _ _ _ _ h
      | succ k =>
        exact ih (i + 1) _ (k := k) (by simpa using hk) (by
          intro m hm
          exact hn m (by rwa [show i + (k + 1) = i + 1 + k by omega])) h

theorem interpolate_sum {s : Spline X64} {p r : X64} (h : interpolate s p = some (.ok r)) : sumFrom s.knots p s.degree 0 s.ctrl zero = some r := by
  unfold interpolate at h
  cases h1 : s.knots[s.degree]? with
  | none => rw [h1] at h; simp at h
  | some a =>
    rw [h1] at h
    simp only [Option.bind_eq_bind, Option.bind_some] at h
    split_ifs at h with h2 h3
    · cases h4 : s.knots[s.knots.length - s.degree - 1]? with
      | none => rw [h4] at h; simp at h
      | some b =>
        rw [h4] at h
        simp only [Option.bind_some] at h
        split_ifs at h with h5
        · cases h6 : sumFrom s.knots p s.degree 0 s.ctrl zero with
          | none => rw [h6] at h; simp at h
          | some v => rw [h6] at h; simpa using h
        · simp at h
    · simp at h

/-- C111 (defect): one control point that is NaN makes every value of the spline NaN, also far away from the part of the curve it belongs to. -/
theorem C111_nan_control_defect {s : Spline X64} (h : nan ∈ s.ctrl) {p r : X64} (hr : interpolate s p = some (.ok r)) : r = nan := by
  obtain ⟨k, hk, he⟩ := List.getElem_of_mem h
  exact sumFrom_term _ _ _ _ _ _ (k := k) (c := nan) (by rw [List.getElem?_eq_getElem hk, he]) (fun n _ => X64.mul_nan n) (interpolate_sum hr)

/-- C111 (defect): a control point that is infinite makes the values of the spline NaN outside of the part of the curve it belongs to, where it has no influence
in exact arithmetic: the basis function is zero there, and zero times infinity is NaN. -/
theorem C111_inf_control_defect {D : Data} (hD : D.Valid) (hm : D.Moderate) (hd : D.degree ≤ 50) {ctrl : List X64} (hl : ctrl.length = D.ctrl.length)
    {i : ℕ} {b : Bool} (hi : ctrl[i]? = some (inf b)) {p : F64} (hp : |p.val| ≤ 2 ^ 500)
    (hs : p.val < D.exact.knot i ∨ D.exact.knot (i + D.degree + 1) ≤ p.val) {r : X64}
    (hr : interpolate { D.spline with ctrl := ctrl } (fin p) = some (.ok r)) : r = nan := by
  refine sumFrom_term _ _ _ _ _ _ hi (fun n hn => ?_) (interpolate_sum hr)
  obtain ⟨hlt, -⟩ := List.getElem?_eq_some_iff.1 hi
  obtain ⟨m, m1, m2, m3, m4⟩ := cox_near hD hm hp D.degree i hd (by have := hD.len; omega)
  rw [Nat.zero_add] at hn
  have h0 := m3 (N_zero hD.mono p.val D.degree i hs)
  have : some (fin m) = some n := m1.symm.trans hn
  cases this
  have hm0 : m = F64.zero := F64.ext (h0.trans rfl)
  subst hm0
  rfl

/-- C111 (defect): `add_point` takes a NaN, although `new` refuses it, and puts it in front of the other knots. From then on a spline of degree zero refuses every point,
and one of higher degree has no value but NaN. -/
theorem C111_nan_knot_defect (s : Spline X64) (y : X64) :
    (addPoint s nan y).knots = nan :: s.knots ∧
    (s.degree = 0 → ∀ p, interpolate (addPoint s nan y) p = some (.error ())) ∧
    (0 < s.degree → ∀ p r, interpolate (addPoint s nan y) p = some (.ok r) → r = nan) := by
  have h0 : (addPoint s nan y).knots = nan :: s.knots := by
    unfold addPoint partitionPoint
    have : s.knots.takeWhile (fun x => x.lt nan) = [] := by
      cases s.knots with
      | nil => rfl
      | cons a as => rw [List.takeWhile_cons_of_neg (by cases a <;> simp [X64.lt])]
    simp [this]
  refine ⟨h0, fun hd p => ?_, fun hd p r hr => ?_⟩
  · unfold interpolate
    rw [h0, show (addPoint s nan y).degree = 0 from hd]
    cases p <;> rfl
  · have h1 := interpolate_sum hr
    rw [h0] at h1
    change sumFrom (nan :: s.knots) p s.degree 0 (s.ctrl ++ [y]) zero = some r at h1
    have hc : ∃ c, (s.ctrl ++ [y])[0]? = some c := by
      cases s.ctrl with
      | nil => exact ⟨y, rfl⟩
      | cons c cs => exact ⟨c, rfl⟩
    obtain ⟨c, hc⟩ := hc
    refine sumFrom_term _ _ _ _ _ _ hc (fun n hn => ?_) h1
    obtain ⟨d, hd'⟩ : ∃ d, s.degree = d + 1 := ⟨s.degree - 1, by omega⟩
    rw [hd', Nat.zero_add] at hn
    have : n = nan := by
      unfold cox at hn
      cases hb : (nan :: s.knots)[0 + (d + 1)]? with
      | none => rw [hb] at hn; simp at hn
      | some b =>
        rw [hb] at hn
        simp only [Option.bind_eq_bind, Option.bind_some, List.getElem?_cons_zero] at hn
        have hne : ne b nan = true := by cases b <;> rfl
        cases hc1 : cox (nan :: s.knots) p d 0 with
        | none => simp [part, hne, hc1] at hn
        | some m =>
          rw [hc1] at hn
          have hp : part b nan p nan (some m) = some nan := by
            unfold part
            rw [if_pos hne]
            have : (p.sub nan) = nan := by cases p <;> rfl
            rw [this, Option.map_some, show (nan : X64).div (b.sub nan) = nan by cases (b.sub nan) <;> rfl, X64.nan_mul]
          rw [hp] at hn
          simp only [Option.bind_some] at hn
          cases hb' : (nan :: s.knots)[0 + (d + 1) + 1]? with
          | none => rw [hb'] at hn; simp at hn
          | some b' =>
            rw [hb'] at hn
            simp only [Option.bind_some] at hn
            cases ha' : (nan :: s.knots)[0 + 1]? with
            | none => rw [ha'] at hn; simp at hn
            | some a' =>
              rw [ha'] at hn
              simp only [Option.bind_some] at hn
              cases hq : part b' a' b' p (cox (nan :: s.knots) p d (0 + 1)) with
              | none => rw [hq] at hn; simp at hn
              | some q =>
                rw [hq] at hn
                simp only [Option.bind_some, X64.nan_add] at hn
                exact (Option.some.inj hn).symm
    rw [this, X64.nan_mul]

/-- C111 (defect): between knots that are far closer to each other than to the others the spline has no value: with the knots 0, `2^-1074`, 1, 2 and both control
points 1, the value at 1/2 is NaN instead of 1. -/
theorem C111_close_knots_defect :
    interpolate ⟨[ofQ 0, ofQ (2 ^ (-1074 : ℤ)), ofQ 1, ofQ 2], [ofQ 1, ofQ 1], 1, false⟩ (ofQ (1 / 2)) = some (.ok nan) := by
  decide +kernel

/-- C111 (defect): with an infinite last knot, which `new` accepts, the spline has no value: with the knots 0, 1, 2, infinity and both control points 1, the value at 3/2
is NaN. -/
theorem C111_infinite_knot_defect : interpolate ⟨[ofQ 0, ofQ 1, ofQ 2, inf false], [ofQ 1, ofQ 1], 1, false⟩ (ofQ (3 / 2)) = some (.ok nan) := by
  decide +kernel

/-- C111 (defect): a spline whose control points are all 1 is not 1, and leaves the range of its control points on both sides: with the knots 0 to 8 and degree 3 it is
`1 + 2^-52` at `3 + 2^-12` and `1 - 2^-53` at `3 + 3/4096`. -/
theorem C111_constant_defect :
    let s : Spline X64 := ⟨(List.range 9).map X64.ofNat, List.replicate 5 (ofQ 1), 3, false⟩
    interpolate s (ofQ (3 + 1 / 4096)) = some (.ok (ofQ (1 + 2 ^ (-52 : ℤ)))) ∧
      interpolate s (ofQ (3 + 3 / 4096)) = some (.ok (ofQ (1 - 2 ^ (-53 : ℤ)))) := by
  decide +kernel

end Verif.Float.Spline
