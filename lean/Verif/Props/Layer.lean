import Verif.Lemmas.Layer
import Verif.Props.Uniqueness

/-! # C135: equivalent layers

Sources below a plane, seen from above, cannot be told from masses spread over the plane with a
density that is read off the field normal to the plane. -/

namespace Choclo

open Real Set MeasureTheory Filter Topology

variable {P : Box} {a : Axis} {t : ℝ}

theorem VanishAt.const_mul {w : Pt → ℝ} (h : VanishAt w a t) (k : ℝ) : VanishAt (fun p => k * w p) a t := fun ε hε => by
  have hk : 0 < |k| + 1 := by positivity
  obtain ⟨R, hR⟩ := h (ε / (|k| + 1)) (by positivity)
  refine ⟨R, fun p hp hn => ?_⟩
  rw [abs_mul]
  calc |k| * |w p| ≤ (|k| + 1) * (ε / (|k| + 1)) :=
        mul_le_mul (by linarith) (hR p hp hn) (abs_nonneg _) hk.le
    _ = ε := by field_simp

theorem VanishAt.add {v w : Pt → ℝ} (h : VanishAt v a t) (h' : VanishAt w a t) : VanishAt (fun p => v p + w p) a t :=
  fun ε hε => by
    obtain ⟨R, hR⟩ := h (ε / 2) (by linarith)
    obtain ⟨S, hS⟩ := h' (ε / 2) (by linarith)
    refine ⟨max R S, fun p hp hn => ?_⟩
    have := abs_add_le (v p) (w p)
    have := hR p hp ((le_max_left _ _).trans hn)
    have := hS p hp ((le_max_right _ _).trans hn)
    linarith

/-- the field of a magnetization `M`, with a factor `K`, in a family of sources -/
noncomputable def magOf (G : KComp → Pt → ℝ) (K : ℝ) (M : Vec) (d : Axis → KComp) (p : Pt) : ℝ :=
  K * (G (d .e) p * M.e + G (d .n) p * M.n + G (d .u) p * M.u)

theorem mag_layer {G : KComp → Pt → ℝ} (h : Sources G a t)
    (hi : ∀ i j, Integrable fun s => G (kern2 i j) (Pt.onPlane a t s)) (K : ℝ) (M : Vec) :
    Integrable (fun s => magOf G K M (kern2 a) (Pt.onPlane a t s)) ∧
    (∀ i, ∀ p : Pt, t < p.coord a → magOf G K M (kern2 i) p =
      -(1 / (2 * π)) * layer a t (fun s => magOf G K M (kern2 a) (Pt.onPlane a t s)) (kern1 i) p) ∧
    (∀ i j, ∀ p : Pt, t < p.coord a → magOf G K M (kern3 i j) p =
      -(1 / (2 * π)) * layer a t (fun s => magOf G K M (kern2 a) (Pt.onPlane a t s)) (kern2 j i) p) := by
  have f : Integrable (fun s => magOf G K M (kern2 a) (Pt.onPlane a t s)) :=
    ((((hi a .e).mul_const _).add ((hi a .n).mul_const _)).add ((hi a .u).mul_const _)).const_mul K
  have dv : ∀ {d d' : Axis → KComp} {b : Axis}, (∀ j, KComp.Succ (d j) (d' j) b) → ∀ p : Pt, t < p.coord a →
      HasDerivAt (fun x => magOf G K M d (p.set b x)) (magOf G K M d' p) (p.coord b) := fun hs p hp =>
    ((((h.deriv (hs .e) p hp.le).mul_const _).fun_add ((h.deriv (hs .n) p hp.le).mul_const _)).fun_add
      ((h.deriv (hs .u) p hp.le).mul_const _)).const_mul K
  have up : UpRep (magOf G K M (kern2 a)) a t := by
    have u := fun j => h.upRep (kern2 a j)
    refine (((((u .e).const_mul M.e).add ((u .n).const_mul M.n)).add ((u .u).const_mul M.u)).const_mul K).congr
      fun p _ => ?_
    unfold magOf; ring
  have van : VanishAt (magOf G K M kern1) a t := by
    have v := fun j => h.vanish (kern1 j)
    have := ((((v .e).const_mul M.e).add ((v .n).const_mul M.n)).add ((v .u).const_mul M.u)).const_mul K
    intro ε hε
    obtain ⟨R, hR⟩ := this ε hε
    refine ⟨R, fun p hp hn => ?_⟩
    have := hR p hp hn
    unfold magOf
    rwa [mul_comm (G _ p), mul_comm (G _ p), mul_comm (G _ p)]
  have h0 : ∀ p : Pt, t < p.coord a → magOf G K M kern1 p =
      -(1 / (2 * π)) * layer a t (fun s => magOf G K M (kern2 a) (Pt.onPlane a t s)) .pot p := fun p hp => by
    refine layer_eq f van (fun q hq => ?_) hp
    rw [← layer_poisson, up.2.2 q hq]
    exact dv (fun j => kern_succ j a) q hq
  have h1 := fun i => layer_step f (c := .pot) (c' := kern1 i) (b := i) (by cases i <;> rfl) h0 (dv (fun j => kern_succ j i))
  exact ⟨f, h1, fun i j => layer_step f (kern_succ i j) (h1 i) (dv (fun l => kern2_succ i j l))⟩

/-! ## C135 -/

/-- **A point mass and its equivalent layer.**  Let `σ` be the surface density read off the
acceleration normal to a plane above a point mass.  The total mass of the layer is that of the source,
and at every point above the plane every gravity component of the source is the integral of the same
component of the point masses `σ` of the layer. -/
theorem C135_point {q : Pt} (h : q.coord a < t) (m : ℝ) :
    ∃ σ : ℝ × ℝ → ℝ,
      (∀ s, Returns (onPair (A := Exact) (pointGravity a.acc) (Pt.onPlane a t s) q m) (-(2 * π * 6.6743e-11 * σ s))) ∧
      Integrable σ ∧ ∫ s, σ s = m ∧
      ∀ (c : GComp) (p : Pt), t < p.coord a → ∃ f : ℝ × ℝ → ℝ,
        (∀ s, Returns (onPair (A := Exact) (pointGravity c) p (Pt.onPlane a t s) (σ s)) (f s)) ∧ Integrable f ∧
        Returns (onPair (A := Exact) (pointGravity c) p q m) (∫ s, f s) := by
  obtain ⟨i1, i2⟩ := plane_kern1 a h.ne'
  have hs := sources_point h
  have all := fun c => layer_all (W := fun c p => kpp c p q) i1 (hs.vanish .pot) (fun hc p hp => hs.deriv hc p hp.le) (fun p hp => by
    rw [← layer_poisson]; exact ((hs.upRep (kern1 a)).2.2 p hp).symm) c
  refine ⟨fun s => -(m / (2 * π)) * kpp (kern1 a) (Pt.onPlane a t s) q, fun s => ?_, i1.const_mul _, ?_, fun c p hp => ?_⟩
  · have := Ex.pointGravity_fin a.acc (off_plane h.ne' s) m
    rw [acc_toK] at this
    have e : -(2 * π * 6.6743e-11 * (-(m / (2 * π)) * kpp (kern1 a) (Pt.onPlane a t s) q)) =
        Gc * m * kpp (kern1 a) (Pt.onPlane a t s) q := by
      rw [Gc]; field_simp
    rw [e]; exact this
  · rw [integral_const_mul, i2, if_pos h]
    field_simp
  · refine ⟨fun s => Gc * (-(m / (2 * π)) * kpp (kern1 a) (Pt.onPlane a t s) q) * kpp c.toK p (Pt.onPlane a t s),
      fun s => Ex.pointGravity_fin c (off_src hp.ne s) _, ?_, ?_⟩
    · refine ((layer_integrable i1 c.toK hp).const_mul (Gc * (-(m / (2 * π))))).congr (Eventually.of_forall fun s => ?_)
      ring
    · have e : ∫ s, Gc * (-(m / (2 * π)) * kpp (kern1 a) (Pt.onPlane a t s) q) * kpp c.toK p (Pt.onPlane a t s) =
          Gc * m * kpp c.toK p q := by
        have := all c.toK p hp
        beta_reduce at this
        rw [this]
        unfold layer
        rw [← integral_const_mul, ← integral_const_mul]
        congr 1; funext s
        field_simp
      rw [e]
      exact Ex.pointGravity_fin c (fun e => by rw [e] at hp; linarith) m

/-- **A prism and its equivalent layer.**  The same for a prism that does not reach above the plane:
it may touch the plane. -/
theorem C135_prism (hP : P.Ordered) (h : P.hi a ≤ t) (ρ : ℝ) :
    ∃ σ : ℝ × ℝ → ℝ,
      (∀ s, Returns (onPrism (A := Exact) (prismGravity a.acc) (Pt.onPlane a t s) P ρ) (-(2 * π * 6.6743e-11 * σ s))) ∧
      Integrable σ ∧ ∫ s, σ s = ρ * P.volume ∧
      ∀ (c : GComp) (p : Pt), t < p.coord a → ∃ f : ℝ × ℝ → ℝ,
        (∀ s, Returns (onPair (A := Exact) (pointGravity c) p (Pt.onPlane a t s) (σ s)) (f s)) ∧ Integrable f ∧
        Returns (onPrism (A := Exact) (prismGravity c) p P ρ) (∫ s, f s) := by
  obtain ⟨i1, -, i2, -⟩ := plane_prism_Vacc hP a t
  have off : ∀ p : Pt, t < p.coord a → p ∉ P.region := fun p hp hm => by
    have h1 := (coord_mem_region hm a).2
    linarith
  have low : a.acc.letters ≤ 1 := by cases a <;> decide
  have all := fun c => layer_all (W := fun c p => ∫ q in P.region, kpp c p q) i1 (vanish_prism (a := a) (t := t) hP .pot)
    (fun hc p hp => hasDerivAt_integral_kpp hc (off p hp)) (fun p hp => by
      rw [← layer_poisson, (upRep_low hP h low).2.2 p hp]
      beta_reduce
      rw [(integral_low hP a.acc low p).2.symm, acc_toK]) c
  refine ⟨fun s => -(ρ / (2 * π)) * Vc a.acc (Pt.onPlane a t s) P, fun s => ?_, i1.const_mul _, ?_, fun c p hp => ?_⟩
  · have e : -(2 * π * 6.6743e-11 * (-(ρ / (2 * π)) * Vc a.acc (Pt.onPlane a t s) P)) =
        Gc * ρ * Vc a.acc (Pt.onPlane a t s) P := by
      rw [Gc]; field_simp
    rw [e]; exact acc_returns a _ P ρ
  · rw [integral_const_mul, i2 h]
    field_simp
  · refine ⟨fun s => Gc * (-(ρ / (2 * π)) * Vc a.acc (Pt.onPlane a t s) P) * kpp c.toK p (Pt.onPlane a t s),
      fun s => Ex.pointGravity_fin c (off_src hp.ne s) _, ?_, ?_⟩
    · refine ((layer_integrable i1 c.toK hp).const_mul (Gc * (-(ρ / (2 * π))))).congr (Eventually.of_forall fun s => ?_)
      ring
    · have e : ∫ s, Gc * (-(ρ / (2 * π)) * Vc a.acc (Pt.onPlane a t s) P) * kpp c.toK p (Pt.onPlane a t s) =
          Gc * ρ * Vc c p P := by
        have := all c.toK p hp
        beta_reduce at this
        rw [Vc_outside hP c (off p hp), this]
        unfold layer
        rw [← integral_const_mul, ← integral_const_mul]
        congr 1; funext s
        field_simp
      rw [e]
      exact Ex.gravity_returns hP (exterior_singular hP (off p hp) c) ρ

theorem layer_kern1 (f : ℝ × ℝ → ℝ) (i : Axis) (p : Pt) : -(1 / (2 * π)) * layer a t f (kern1 i) p =
    1 / (2 * π) * ∫ s, f s * ((p.coord i - (Pt.onPlane a t s).coord i) / dist3 p (Pt.onPlane a t s) ^ 3) := by
  unfold layer
  rw [← acc_toK, ← integral_const_mul, ← integral_const_mul]
  congr 1; funext s
  rw [kpp_acc_dist]; ring

theorem layer_kern1_integrable {f : ℝ × ℝ → ℝ} (hf : Integrable f) (i : Axis) {p : Pt} (hp : t < p.coord a) :
    Integrable fun s => f s * ((p.coord i - (Pt.onPlane a t s).coord i) / dist3 p (Pt.onPlane a t s) ^ 3) := by
  refine (layer_integrable hf (kern1 i) hp).neg.congr (Eventually.of_forall fun s => ?_)
  show -(f s * kpp (kern1 i) p (Pt.onPlane a t s)) = _
  rw [← acc_toK, kpp_acc_dist]; ring

/-- **The whole field of a dipole from its normal component.**  All three components above a plane
are integrals of the component normal to the plane, on the plane. -/
theorem C135_dipole {q : Pt} (h : q.coord a < t) (m : Pt) :
    ∃ B : Axis → Pt → ℝ,
      (∀ i (p : Pt), t ≤ p.coord a → Returns (onPair (A := Exact) (dipoleMagnetic i) p q m.e m.n m.u) (B i p)) ∧
      ∀ i (p : Pt), t < p.coord a →
        Integrable (fun s => B a (Pt.onPlane a t s) * ((p.coord i - (Pt.onPlane a t s).coord i) / dist3 p (Pt.onPlane a t s) ^ 3)) ∧
        B i p = 1 / (2 * π) *
          ∫ s, B a (Pt.onPlane a t s) * ((p.coord i - (Pt.onPlane a t s).coord i) / dist3 p (Pt.onPlane a t s) ^ 3) := by
  obtain ⟨f, h1, -⟩ := mag_layer (sources_point h) (fun i j => (plane_kern2 a i j h.ne').1) (mu0 / 4 / π) m
  refine ⟨fun i => magOf (fun c p => kpp c p q) (mu0 / 4 / π) m (kern2 i), fun i p hp =>
    dipole_fin i (fun e => by rw [e] at hp; linarith) m, fun i p hp => ⟨layer_kern1_integrable f i hp, ?_⟩⟩
  rw [← layer_kern1]
  exact h1 i p hp

/-- **The whole magnetic field of a prism from its normal component.**  All components of the field
and of its gradient above a plane are integrals of the component normal to the plane, on the plane. -/
theorem C135_magnetic (hP : P.Ordered) (h : P.hi a < t) (M : Vec) :
    ∃ (B : Axis → Pt → ℝ) (J : Axis → Axis → Pt → ℝ),
      (∀ i (p : Pt), t ≤ p.coord a → Returns (onPrism (A := Exact) (prismMagnetic i.field) p P M.e M.n M.u) (B i p)) ∧
      (∀ i j (p : Pt), t ≤ p.coord a → Returns (onPrism (A := Exact) (prismMagnetic (gradComp i j)) p P M.e M.n M.u) (J i j p)) ∧
      (∀ i (p : Pt), t < p.coord a →
        Integrable (fun s => B a (Pt.onPlane a t s) * ((p.coord i - (Pt.onPlane a t s).coord i) / dist3 p (Pt.onPlane a t s) ^ 3)) ∧
        B i p = 1 / (2 * π) *
          ∫ s, B a (Pt.onPlane a t s) * ((p.coord i - (Pt.onPlane a t s).coord i) / dist3 p (Pt.onPlane a t s) ^ 3)) ∧
      (∀ i j (p : Pt), t < p.coord a → ∃ k : ℝ × ℝ → ℝ,
        (∀ s, Returns (callKernel (A := Exact) (tensor i j).toK p (Pt.onPlane a t s)) (k s)) ∧
        Integrable (fun s => B a (Pt.onPlane a t s) * k s) ∧
        J i j p = -(1 / (2 * π)) * ∫ s, B a (Pt.onPlane a t s) * k s) := by
  obtain ⟨f, h1, h2⟩ := mag_layer (sources_prism hP h) (fun i j => (plane_prism_kern2 (.inr h) i j).1) (mu0 / 4 / π) M
  have ret := fun (c : MComp) (p : Pt) (hp : t ≤ p.coord a) => Ex.magnetic_returns hP (c := c)
    (exterior_edges hP (above_off_region h hp)) (fun h' => above_off_region h hp (inside_subset_region h')) M.e M.n M.u
  refine ⟨fun i => magOf (fun c p => ∫ q in P.region, kpp c p q) (mu0 / 4 / π) M (kern2 i),
    fun i j => magOf (fun c p => ∫ q in P.region, kpp c p q) (mu0 / 4 / π) M (kern3 i j),
    fun i p hp => ?_, fun i j p hp => ?_, fun i p hp => ⟨layer_kern1_integrable f i hp, ?_⟩, fun i j p hp => ?_⟩
  · have k := fun c => integrableOn_kpp (P := P) c (above_off_region h hp)
    have := ret i.field p hp
    rw [Bc_field_integral hP i (above_off_region h hp) M, integral_const_mul, integral_lin3 (k _) (k _) (k _)] at this
    exact this
  · have k := fun c => integrableOn_kpp (P := P) c (above_off_region h hp)
    have := ret (gradComp i j) p hp
    rw [Bc_grad_integral hP i j (above_off_region h hp) M, integral_lin3 (k _) (k _) (k _)] at this
    exact this
  · rw [← layer_kern1]
    exact h1 i p hp
  · refine ⟨fun s => kpp (kern2 j i) p (Pt.onPlane a t s), fun s => ?_, layer_integrable f _ hp, h2 i j p hp⟩
    rw [tensor_toK]
    exact Ex.callKernel_fin _ (off_src hp.ne s)

/-- non-vacuity: the example prism reaches up to `upward = 0`, and is strictly below `upward = 1`;
there are points above both planes; a point source below -/
example : exBox.Ordered ∧ exBox.hi .u ≤ 0 ∧ exBox.hi .u < 1 ∧ (1 : ℝ) < Pt.coord (0, 0, 2) .u ∧
    Pt.coord (0, 0, -3) .u < 0 := by
  refine ⟨exBox_ordered, ?_, ?_, ?_, ?_⟩ <;> norm_num [exBox, Box.hi, Pt.coord, Pt.u]

end Choclo
