import Verif.Props.Utils
import Mathlib.Analysis.SpecialFunctions.Trigonometric.Bounds

/-! # C75: geometry of `distance_spherical` in exact arithmetic

A point is given here by the triple (longitude in degrees, latitude in degrees, radius). -/

namespace Choclo

open Real

/-- The distance is a metric on the embedded points: triangle inequality, and bounds by the radii. -/
theorem C75_triangle (p q s : Pt) :
    ∃ dpq dps dqs : ℝ,
      Returns (onPair (A := Exact) utils.distance_spherical p q) dpq ∧
      Returns (onPair (A := Exact) utils.distance_spherical p s) dps ∧
      Returns (onPair (A := Exact) utils.distance_spherical q s) dqs ∧
      0 ≤ dpq ∧ dps ≤ dpq + dqs :=
  ⟨_, _, _, C02_distance_spherical .., C02_distance_spherical .., C02_distance_spherical .., dist_nonneg,
    dist_triangle _ _ _⟩

/-- It lies between the difference and the sum of the radii. -/
theorem C75_radii (lonp latp rp lonq latq rq : ℝ) (hp : 0 ≤ rp) (hq : 0 ≤ rq) :
    ∃ d : ℝ, Returns (utils.distance_spherical (A := Exact) lonp latp rp lonq latq rq) d ∧
      |rp - rq| ≤ d ∧ d ≤ rp + rq := by
  refine ⟨_, C02_distance_spherical lonp latp rp lonq latq rq, ?_, ?_⟩
  · have := abs_norm_sub_norm_le (toE (sph (deg lonp) (deg latp) rp)) (toE (sph (deg lonq) (deg latq) rq))
    rwa [norm_sph, norm_sph, abs_of_nonneg hp, abs_of_nonneg hq, ← dist_eq_norm] at this
  · have := norm_sub_le (toE (sph (deg lonp) (deg latp) rp)) (toE (sph (deg lonq) (deg latq) rq))
    rwa [norm_sph, norm_sph, abs_of_nonneg hp, abs_of_nonneg hq, ← dist_eq_norm] at this

theorem sq_dist_sph (lonp latp rp lonq latq rq : ℝ) :
    dist (toE (sph lonp latp rp)) (toE (sph lonq latq rq)) ^ 2 =
      (rp - rq) ^ 2 + 2 * rp * rq * (1 - (sin latq * sin latp + cos latq * cos latp * cos (lonq - lonp))) := by
  rw [← dist3_eq_dist, dist3_sph]

theorem dist_sph_eq {d lonp latp rp lonq latq rq : ℝ} (h : 0 ≤ d)
    (e : (rp - rq) ^ 2 + 2 * rp * rq * (1 - (sin latq * sin latp + cos latq * cos latp * cos (lonq - lonp))) = d ^ 2) :
    dist (toE (sph lonp latp rp)) (toE (sph lonq latq rq)) = d := by
  rw [← sq_dist_sph] at e
  exact (sq_eq_sq₀ dist_nonneg h).mp e

theorem deg_sub (x y : ℝ) : deg x - deg y = deg (x - y) := by unfold deg; ring

theorem dist_sph_mono (lonp latp rp lonq latq rq lonp' latp' lonq' latq' : ℝ)
    (e : sin latq * sin latp + cos latq * cos latp * cos (lonq - lonp) =
      sin latq' * sin latp' + cos latq' * cos latp' * cos (lonq' - lonp')) :
    dist (toE (sph lonp latp rp)) (toE (sph lonq latq rq)) =
      dist (toE (sph lonp' latp' rp)) (toE (sph lonq' latq' rq)) := by
  refine dist_sph_eq dist_nonneg ?_
  rw [sq_dist_sph, e]

/-- Turning both points by the same angle about the polar axis, or mirroring both longitudes or both
latitudes, does not change the distance. -/
theorem C75_rotation (lonp latp rp lonq latq rq a : ℝ) :
    utils.distance_spherical (A := Exact) (Fl.fin (lonp + a)) latp rp (Fl.fin (lonq + a)) latq rq =
      utils.distance_spherical (A := Exact) lonp latp rp lonq latq rq ∧
    utils.distance_spherical (A := Exact) (Fl.fin (-lonp)) latp rp (Fl.fin (-lonq)) latq rq =
      utils.distance_spherical (A := Exact) lonp latp rp lonq latq rq ∧
    utils.distance_spherical (A := Exact) lonp (Fl.fin (-latp)) rp lonq (Fl.fin (-latq)) rq =
      utils.distance_spherical (A := Exact) lonp latp rp lonq latq rq := by
  have h := C02_distance_spherical lonp latp rp lonq latq rq
  have n : ∀ x, deg (-x) = -deg x := fun x => by unfold deg; ring
  refine ⟨(C02_distance_spherical (lonp + a) latp rp (lonq + a) latq rq).trans (.trans ?_ h.symm),
    (C02_distance_spherical (-lonp) latp rp (-lonq) latq rq).trans (.trans ?_ h.symm),
    (C02_distance_spherical lonp (-latp) rp lonq (-latq) rq).trans (.trans ?_ h.symm)⟩ <;>
  · refine congrArg (fun x => Except.ok (Fl.fin x)) (dist_sph_mono _ _ _ _ _ _ _ _ _ _ ?_)
    first
    | rw [deg_sub, deg_sub, add_sub_add_right_eq_sub]
    | rw [deg_sub, deg_sub, ← cos_neg (deg (lonq - lonp)), ← n]; ring_nf
    | rw [n, n, sin_neg, sin_neg, cos_neg, cos_neg, neg_mul_neg]

/-- Multiplying both radii by a non-negative number multiplies the distance by it. -/
theorem C75_scale (lonp latp rp lonq latq rq k : ℝ) (hk : 0 ≤ k) :
    ∃ d : ℝ, Returns (utils.distance_spherical (A := Exact) lonp latp rp lonq latq rq) d ∧
      Returns (utils.distance_spherical (A := Exact) lonp latp (Fl.fin (k * rp)) lonq latq (Fl.fin (k * rq))) (k * d) := by
  refine ⟨_, C02_distance_spherical lonp latp rp lonq latq rq, ?_⟩
  have h := C02_distance_spherical lonp latp (k * rp) lonq latq (k * rq)
  rwa [dist_sph_eq (d := k * dist (toE (sph (deg lonp) (deg latp) rp)) (toE (sph (deg lonq) (deg latq) rq)))
    (by positivity) (by rw [mul_pow, sq_dist_sph]; ring)] at h

theorem chord {r x : ℝ} : 2 * r * r * (1 - cos x) = (2 * r * |sin (x / 2)|) ^ 2 := by
  have : cos x = 1 - 2 * sin (x / 2) ^ 2 := by
    rw [← cos_sq_add_sin_sq (x / 2), show cos x = cos (2 * (x / 2)) by ring_nf, cos_two_mul']; ring
  rw [this, mul_pow, sq_abs]; ring

/-- Along a radius it is the difference of the radii, between antipodal directions their sum, along a
meridian or the equator the chord of the arc. -/
theorem C75_special (lon lat r s x y : ℝ) (hr : 0 ≤ r) (hs : 0 ≤ s) :
    Returns (utils.distance_spherical (A := Exact) lon lat r lon lat s) |r - s| ∧
    Returns (utils.distance_spherical (A := Exact) lon lat r (Fl.fin (lon + 180)) (Fl.fin (-lat)) s) (r + s) ∧
    Returns (utils.distance_spherical (A := Exact) lon x r lon y r) (2 * r * |sin (deg (x - y) / 2)|) ∧
    Returns (utils.distance_spherical (A := Exact) x (Fl.fin 0) r y (Fl.fin 0) r) (2 * r * |sin (deg (x - y) / 2)|) := by
  have h0 : deg 0 = 0 := by unfold deg; ring
  have s1 := sin_sq_add_cos_sq (deg lat)
  refine ⟨?_, ?_, ?_, ?_⟩
  · refine (C02_distance_spherical ..).trans (congrArg (fun x => Except.ok (Fl.fin x)) (dist_sph_eq (abs_nonneg _) ?_))
    rw [sub_self, cos_zero, sq_abs]
    linear_combination (-2 * r * s) * s1
  · refine (C02_distance_spherical ..).trans (congrArg (fun x => Except.ok (Fl.fin x)) (dist_sph_eq (by positivity) ?_))
    have e1 : deg (-lat) = -deg lat := by unfold deg; ring
    have e2 : deg (lon + 180) - deg lon = π := by unfold deg; ring
    rw [e1, e2, cos_pi, sin_neg, cos_neg]
    linear_combination (2 * r * s) * s1
  · refine (C02_distance_spherical ..).trans (congrArg (fun x => Except.ok (Fl.fin x)) (dist_sph_eq (by positivity) ?_))
    rw [← chord, sub_self (deg lon), cos_zero, ← deg_sub, cos_sub]; ring
  · refine (C02_distance_spherical ..).trans (congrArg (fun x => Except.ok (Fl.fin x)) (dist_sph_eq (by positivity) ?_))
    rw [← chord, h0, cos_zero, sin_zero, ← deg_sub, ← cos_neg (deg x - deg y)]; ring_nf

/-- Two points with positive radii and latitudes between the poles are at distance zero exactly if they
have the same radius and latitude and, unless they are at a pole, longitudes that differ by full turns. -/
theorem C75_zero_iff (lonp latp rp lonq latq rq : ℝ) (hp : 0 < rp) (hq : 0 < rq) (h1 : |latp| ≤ 90) (h2 : |latq| ≤ 90) :
    Returns (utils.distance_spherical (A := Exact) lonp latp rp lonq latq rq) 0 ↔
      rp = rq ∧ latp = latq ∧ (|latp| = 90 ∨ ∃ k : ℤ, lonq - lonp = 360 * k) := by
  have hpi := Real.pi_pos
  have h := C02_distance_spherical lonp latp rp lonq latq rq
  have hz : Returns (utils.distance_spherical (A := Exact) lonp latp rp lonq latq rq) 0 ↔
      dist (toE (sph (deg lonp) (deg latp) rp)) (toE (sph (deg lonq) (deg latq) rq)) ^ 2 = 0 := by
    rw [sq_eq_zero_iff]
    unfold Returns at *
    rw [h]
    constructor
    · intro e; exact Raw.fin.inj (Except.ok.inj e)
    · intro e; rw [e]
  rw [hz, sq_dist_sph]
  have mem : ∀ x, |x| ≤ 90 → deg x ∈ Set.Icc (-(π / 2)) (π / 2) := fun x hx => by
    rw [abs_le] at hx
    unfold deg
    constructor <;> nlinarith
  have c1 := cos_nonneg_of_mem_Icc (mem _ h1)
  have c2 := cos_nonneg_of_mem_Icc (mem _ h2)
  have cl := cos_le_one (deg lonq - deg lonp)
  have key : 1 - (sin (deg latq) * sin (deg latp) + cos (deg latq) * cos (deg latp) * cos (deg lonq - deg lonp)) =
      (1 - cos (deg latq - deg latp)) + cos (deg latq) * cos (deg latp) * (1 - cos (deg lonq - deg lonp)) := by
    rw [cos_sub (deg latq)]; ring
  have n1 : 0 ≤ 1 - cos (deg latq - deg latp) := by linarith [cos_le_one (deg latq - deg latp)]
  have n2 : 0 ≤ cos (deg latq) * cos (deg latp) * (1 - cos (deg lonq - deg lonp)) :=
    mul_nonneg (mul_nonneg c2 c1) (by linarith)
  rw [key]
  constructor
  · intro e
    have q0 : 0 < 2 * rp * rq := by positivity
    have m0 : 0 ≤ 2 * rp * rq * ((1 - cos (deg latq - deg latp)) +
      cos (deg latq) * cos (deg latp) * (1 - cos (deg lonq - deg lonp))) := mul_nonneg q0.le (by linarith)
    have e1 : (rp - rq) ^ 2 = 0 := by nlinarith [sq_nonneg (rp - rq)]
    have e2 : (1 - cos (deg latq - deg latp)) +
      cos (deg latq) * cos (deg latp) * (1 - cos (deg lonq - deg lonp)) = 0 := by
      rw [e1, zero_add] at e
      exact (mul_eq_zero.mp e).resolve_left q0.ne'
    have e3 : cos (deg latq - deg latp) = 1 := by linarith
    have e4 : cos (deg latq) * cos (deg latp) * (1 - cos (deg lonq - deg lonp)) = 0 := by linarith
    have hlat : latp = latq := by
      rw [cos_eq_one_iff] at e3
      obtain ⟨k, hk⟩ := e3
      have b1 := mem _ h1
      have b2 := mem _ h2
      have hk0 : k = 0 := by
        have l1 : (k : ℝ) < 1 := by
          have : (k : ℝ) * (2 * π) ≤ π := by rw [hk]; linarith [b1.1, b2.2]
          nlinarith
        have l2 : (-1 : ℝ) < k := by
          have : -π ≤ (k : ℝ) * (2 * π) := by rw [hk]; linarith [b1.2, b2.1]
          nlinarith
        have l1' : k < 1 := by exact_mod_cast l1
        have l2' : -1 < k := by exact_mod_cast l2
        omega
      rw [hk0, deg_sub] at hk
      unfold deg at hk
      have := (mul_eq_zero.mp (by simpa using hk.symm)).resolve_right (by positivity : π / 180 ≠ 0)
      linarith
    refine ⟨by nlinarith [sq_eq_zero_iff.mp e1], hlat, ?_⟩
    subst hlat
    rcases mul_eq_zero.mp e4 with h | h
    · left
      have hc : cos (deg latp) = 0 := by simpa using h
      by_contra hne
      have lt : |latp| < 90 := lt_of_le_of_ne h1 hne
      rw [abs_lt] at lt
      have : 0 < cos (deg latp) := cos_pos_of_mem_Ioo ⟨by unfold deg; nlinarith, by unfold deg; nlinarith⟩
      linarith
    · right
      have : cos (deg lonq - deg lonp) = 1 := by linarith
      rw [cos_eq_one_iff] at this
      obtain ⟨k, hk⟩ := this
      refine ⟨k, ?_⟩
      rw [deg_sub] at hk
      unfold deg at hk
      have e : (lonq - lonp - 360 * k) * (π / 180) = 0 := by linear_combination -hk
      have := (mul_eq_zero.mp e).resolve_right (by positivity)
      linarith
  · rintro ⟨rfl, rfl, h'⟩
    rw [sub_self, sub_self, cos_zero]
    clear h hz
    rcases h' with h | ⟨k, hk⟩
    · have : cos (deg latp) = 0 := by
        rcases abs_choice latp with e | e <;> rw [e] at h
        · rw [h, show deg 90 = π / 2 by unfold deg; ring, cos_pi_div_two]
        · rw [show latp = -90 by linarith, show deg (-90) = -(π / 2) by unfold deg; ring, cos_neg, cos_pi_div_two]
      rw [this]; ring
    · rw [deg_sub, hk, show deg (360 * k) = k * (2 * π) by unfold deg; ring, cos_int_mul_two_pi]; ring

/-- non-vacuity: from Rio de Janeiro, one turn is no distance; to another place it is one -/
example : Returns (utils.distance_spherical (A := Exact) (-43 : ℝ) (-23 : ℝ) (6371 : ℝ) (317 : ℝ) (-23 : ℝ) (6371 : ℝ)) 0 ∧
    ¬ Returns (utils.distance_spherical (A := Exact) (-43 : ℝ) (-23 : ℝ) (6371 : ℝ) (-46 : ℝ) (-23 : ℝ) (6371 : ℝ)) 0 := by
  have b : |(-23 : ℝ)| ≤ 90 := by norm_num [abs_le]
  rw [C75_zero_iff _ _ _ _ _ _ (by norm_num) (by norm_num) b b, C75_zero_iff _ _ _ _ _ _ (by norm_num) (by norm_num) b b]
  refine ⟨⟨rfl, rfl, Or.inr ⟨1, by norm_num⟩⟩, ?_⟩
  rintro ⟨_, _, h | ⟨k, hk⟩⟩
  · norm_num [abs_of_neg] at h
  · have h1 : ((-3 : ℤ) : ℝ) = ((360 * k : ℤ) : ℝ) := by push_cast; linarith
    have h2 : (-3 : ℤ) = 360 * k := by exact_mod_cast h1
    omega

end Choclo
