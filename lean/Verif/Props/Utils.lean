import Verif.Lemmas.PointEval
import Verif.Spec.Sphere
import Mathlib.Analysis.InnerProductSpace.PiL2
import Mathlib.Analysis.SpecialFunctions.Trigonometric.Basic

/-! # Properties of `choclo.utils` in exact arithmetic: C01, C02, C03 -/

namespace Choclo

open Real

/-! ## C01 -/

theorem dist3_eq_dist (p q : Pt) : dist3 p q = dist (toE p) (toE q) := by
  rw [EuclideanSpace.dist_eq]
  unfold dist3 toE
  simp [Fin.sum_univ_three, Real.dist_eq, sq_abs]

/-- **C01.** `distance_cartesian` never raises and returns the Euclidean distance. -/
theorem C01_distance_cartesian (p q : Pt) :
    Returns (onPair (A := Exact) utils.distance_cartesian p q) (dist (toE p) (toE q)) := by
  rw [← dist3_eq_dist]
  exact Ex.distance_cartesian_fin p q

/-- **C01.** The returned number is a metric: non-negative, zero exactly for coincident points,
symmetric, and it satisfies the triangle inequality. -/
theorem C01_metric (p q s : Pt) :
    ∃ dpq dqp dps dqs : ℝ,
      Returns (onPair (A := Exact) utils.distance_cartesian p q) dpq ∧
      Returns (onPair (A := Exact) utils.distance_cartesian q p) dqp ∧
      Returns (onPair (A := Exact) utils.distance_cartesian p s) dps ∧
      Returns (onPair (A := Exact) utils.distance_cartesian q s) dqs ∧
      0 ≤ dpq ∧ (dpq = 0 ↔ p = q) ∧ dpq = dqp ∧ dps ≤ dpq + dqs := by
  refine ⟨_, _, _, _, C01_distance_cartesian p q, C01_distance_cartesian q p,
    C01_distance_cartesian p s, C01_distance_cartesian q s, dist_nonneg, ?_, dist_comm _ _,
    dist_triangle _ _ _⟩
  rw [← dist3_eq_dist]
  exact dist3_eq_zero

/-- non-vacuity: a 3-4-12 box has diagonal 13 -/
example : Returns (onPair (A := Exact) utils.distance_cartesian (0, 0, 0) (3, 4, 12)) 13 := by
  have := Ex.distance_cartesian_fin (0, 0, 0) (3, 4, 12)
  unfold Returns
  rw [this]
  congr 2
  unfold dist3
  simp only [Pt.e, Pt.n, Pt.u]
  norm_num
  rw [show (169 : ℝ) = 13 ^ 2 by norm_num]
  exact Real.sqrt_sq (by norm_num)

/-! ## C02, C03 -/

theorem inner_toE (p q : Pt) : inner ℝ (toE p) (toE q) = p.e * q.e + p.n * q.n + p.u * q.u := by
  unfold toE
  simp [PiLp.inner_apply, Fin.sum_univ_three, mul_comm]

theorem cosAngle_eq (lonp latp lonq latq : ℝ) : cosAngle lonp latp lonq latq =
    sin latq * sin latp + cos latq * cos latp * cos (lonq - lonp) := by
  unfold cosAngle
  rw [inner_toE, cos_sub]
  simp only [sph, Pt.e, Pt.n, Pt.u]
  ring

theorem norm_sph (lon lat r : ℝ) : ‖toE (sph lon lat r)‖ = |r| := by
  rw [← Real.sqrt_sq_eq_abs, EuclideanSpace.norm_eq]
  congr 1
  unfold toE sph
  simp [Fin.sum_univ_three, sq_abs]
  have h1 := Real.sin_sq_add_cos_sq lon
  have h2 := Real.sin_sq_add_cos_sq lat
  calc (r * (cos lat * cos lon)) ^ 2 + (r * (cos lat * sin lon)) ^ 2 + (r * sin lat) ^ 2
      = r ^ 2 * (cos lat ^ 2 * (sin lon ^ 2 + cos lon ^ 2) + sin lat ^ 2) := by ring
    _ = r ^ 2 := by rw [h1, mul_one, add_comm, h2, mul_one]

theorem cosAngle_mem (lonp latp lonq latq : ℝ) : cosAngle lonp latp lonq latq ∈ Set.Icc (-1) 1 := by
  have h := abs_real_inner_le_norm (toE (sph lonp latp 1)) (toE (sph lonq latq 1))
  rw [norm_sph, norm_sph] at h
  norm_num at h
  exact abs_le.mp h

theorem dist3_sph (lonp latp rp lonq latq rq : ℝ) :
    (dist3 (sph lonp latp rp) (sph lonq latq rq)) ^ 2 =
      (rp - rq) ^ 2 + 2 * rp * rq * (1 - (sin latq * sin latp + cos latq * cos latp * cos (lonq - lonp))) := by
  unfold dist3
  rw [Real.sq_sqrt (by positivity), cos_sub]
  simp only [sph, Pt.e, Pt.n, Pt.u]
  have h1 := Real.sin_sq_add_cos_sq lonp
  have h2 := Real.sin_sq_add_cos_sq latp
  have h3 := Real.sin_sq_add_cos_sq lonq
  have h4 := Real.sin_sq_add_cos_sq latq
  have e1 : (rp * (cos latp * cos lonp) - rq * (cos latq * cos lonq)) ^ 2
      + (rp * (cos latp * sin lonp) - rq * (cos latq * sin lonq)) ^ 2
      + (rp * sin latp - rq * sin latq) ^ 2 =
      rp ^ 2 * (cos latp ^ 2 * (sin lonp ^ 2 + cos lonp ^ 2) + sin latp ^ 2)
      + rq ^ 2 * (cos latq ^ 2 * (sin lonq ^ 2 + cos lonq ^ 2) + sin latq ^ 2)
      - 2 * rp * rq * (sin latq * sin latp
        + cos latq * cos latp * (cos lonq * cos lonp + sin lonq * sin lonp)) := by ring
  rw [e1, h1, h3, mul_one, mul_one, add_comm (cos latp ^ 2), add_comm (cos latq ^ 2), h2, h4]
  ring

theorem distance_spherical_core_fin (lonp latp rp lonq latq rq : ℝ) :
    utils.distance_spherical_core (xf lonp) (xf (cos latp)) (xf (sin latp)) (xf rp)
      (xf lonq) (xf (cos latq)) (xf (sin latq)) (xf rq) =
    .ok (xf (dist3 (sph lonp latp rp) (sph lonq latq rq)), xf (cosAngle lonp latp lonq latq),
      xf (cos (lonq - lonp))) := by
  unfold utils.distance_spherical_core
  have h := dist3_sph lonp latp rp lonq latq rq
  simp only [Ex.sub_fin, Ex.cos_fin, Ex.mul_fin, Ex.add_fin, Ex.pow_fin, Ex.ofNat_fin, Ex.one_fin]
  rw [← h, Ex.sqrt_fin _ (by positivity), Real.sqrt_sq (dist3_eq_rad _ _ ▸ rad_nonneg _ _ _), ← cosAngle_eq]
  rfl

/-- **C03.** `distance_spherical_core`, called with the cosines and sines of the latitudes, returns
the distance of the two embedded points, the cosine of the angle between the position directions
(which is between -1 and 1) and the cosine of the longitude difference. -/
theorem C03_distance_spherical_core (lonp latp rp lonq latq rq : ℝ) :
    (utils.distance_spherical_core (A := Exact) lonp (cos latp) (sin latp) rp lonq (cos latq)
        (sin latq) rq =
      .ok (Fl.fin (dist (toE (sph lonp latp rp)) (toE (sph lonq latq rq))),
        Fl.fin (cosAngle lonp latp lonq latq), Fl.fin (cos (lonq - lonp)))) ∧
    cosAngle lonp latp lonq latq ∈ Set.Icc (-1) 1 := by
  refine ⟨?_, cosAngle_mem _ _ _ _⟩
  rw [← dist3_eq_dist]
  exact distance_spherical_core_fin lonp latp rp lonq latq rq

/-- **C03.** ... the same distance as `distance_spherical` for the same points in degrees. -/
theorem C03_same_distance (lonp latp rp lonq latq rq : ℝ) :
    ∃ d cpsi clam : Fl Exact,
      utils.distance_spherical_core (A := Exact) (deg lonp) (cos (deg latp)) (sin (deg latp)) rp
        (deg lonq) (cos (deg latq)) (sin (deg latq)) rq = .ok (d, cpsi, clam) ∧
      utils.distance_spherical (A := Exact) lonp latp rp lonq latq rq = .ok d := by
  refine ⟨_, _, _, distance_spherical_core_fin _ _ _ _ _ _, ?_⟩
  unfold utils.distance_spherical
  simp only [Ex.radians_fin, Ex.cos_fin, Ex.sin_fin]
  have := distance_spherical_core_fin (deg lonp) (deg latp) rp (deg lonq) (deg latq) rq
  unfold deg at this
  rw [this]
  rfl

/-- **C02.** `distance_spherical` never raises and returns the Euclidean distance between the
embedded points, for all longitudes, latitudes (degrees) and radii. -/
theorem C02_distance_spherical (lonp latp rp lonq latq rq : ℝ) :
    Returns (utils.distance_spherical (A := Exact) lonp latp rp lonq latq rq)
      (dist (toE (sph (deg lonp) (deg latp) rp)) (toE (sph (deg lonq) (deg latq) rq))) := by
  obtain ⟨d, c1, c2, h1, h2⟩ := C03_same_distance lonp latp rp lonq latq rq
  rw [(C03_distance_spherical_core _ _ _ _ _ _).1] at h1
  unfold Returns
  rw [h2]
  have := Prod.mk.inj (Except.ok.inj h1)
  rw [this.1]

/-- **C02.** Whole turns of either longitude do not matter. -/
theorem C02_periodic (lonp latp rp lonq latq rq : ℝ) (j k : ℤ) :
    utils.distance_spherical (A := Exact) (Fl.fin (lonp + 360 * j)) latp rp (Fl.fin (lonq + 360 * k)) latq rq =
      utils.distance_spherical (A := Exact) lonp latp rp lonq latq rq := by
  have h1 := C02_distance_spherical (lonp + 360 * j) latp rp (lonq + 360 * k) latq rq
  have h2 := C02_distance_spherical lonp latp rp lonq latq rq
  have e : ∀ (lon lat r : ℝ) (j : ℤ), sph (deg (lon + 360 * j)) lat r = sph (deg lon) lat r := by
    intro lon lat r j
    have : deg (lon + 360 * j) = deg lon + j * (2 * π) := by unfold deg; ring
    unfold sph
    rw [this, Real.cos_add_int_mul_two_pi, Real.sin_add_int_mul_two_pi]
  rw [e, e] at h1
  unfold Returns at h1 h2
  rw [h1, h2]

/-- non-vacuity: from the equator to the north pole on the unit sphere -/
example : Returns (utils.distance_spherical (A := Exact) (Fl.fin 0) (Fl.fin 0) (Fl.fin 1) (Fl.fin 0) (Fl.fin 90) (Fl.fin 1)) (√2) := by
  have := C02_distance_spherical 0 0 1 0 90 1
  convert this using 1
  rw [← dist3_eq_dist]
  have h90 : deg 90 = π / 2 := by unfold deg; ring
  have h0 : deg 0 = 0 := by unfold deg; ring
  unfold dist3
  simp [sph, h90, h0]
  norm_num

end Choclo
