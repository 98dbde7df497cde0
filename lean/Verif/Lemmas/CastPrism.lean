import Verif.Lemmas.Cast

/-! # The prism functions and the distances use no power but the square -/

set_option linter.unusedSimpArgs false

namespace Choclo

variable {A B : Arith}

open Fl

theorem Py.bind_castMap {α β γ : Type} (x : Py α) (g : α → β) (k : β → Py γ) :
    (x.map g >>= k) = x >>= fun a => k (g a) := by cases x <;> rfl
theorem Py.castMap_bind {α β γ : Type} (x : Py α) (g : β → γ) (k : α → Py β) :
    (x >>= k).map g = x >>= fun a => (k a).map g := by cases x <;> rfl
theorem Py.castMap_pure {α β : Type} (x : α) (g : α → β) :
    ((pure x : Py α).map g) = pure (g x) := rfl

/-- rewriting a call in `B` on data of `A` to a call in `A` -/
macro "castsimp" h:term "with" "[" ls:Lean.Parser.Tactic.simpLemma,* "]" : tactic =>
  `(tactic| simp only [cast_pi (h := $h), cast_lit (h := $h), cast_neg, cast_add (h := $h), cast_sub (h := $h),
    cast_mul (h := $h), cast_sq (h := $h), cast_sqrt (h := $h), cast_log (h := $h), cast_arctan (h := $h),
    cast_sin (h := $h), cast_cos (h := $h), cast_radians (h := $h), cast_div (h := $h), cast_lt, cast_le, cast_feq,
    Py.bind_castMap, Py.castMap_bind, Py.castMap_pure, bind_pure, apply_ite (Except.map _), $ls,*])

theorem cast_nanE : (nan : Fl B) = cast (nan : Fl A) := rfl

variable (h : SameOps A B)
include h

theorem cast_safe_atan2 (y x : Fl A) :
    prism._safe_atan2 (cast y : Fl B) (cast x) = (prism._safe_atan2 y x).map cast := by
  unfold prism._safe_atan2
  castsimp h with [cast_ofNat (A := A) (B := B)]

theorem cast_safe_log (x y z r : Fl A) :
    prism._safe_log (cast x : Fl B) (cast y) (cast z) (cast r) = (prism._safe_log x y z r).map cast := by
  unfold prism._safe_log
  castsimp h with [cast_ofNat (A := A) (B := B)]

theorem cast_prismkernel_pot (x y z r : Fl A) :
    prism.kernel_pot (cast x : Fl B) (cast y) (cast z) (cast r) = (prism.kernel_pot x y z r).map cast := by
  unfold prism.kernel_pot
  castsimp h with [cast_ofNat (A := A) (B := B), cast_half (A := A) (B := B), cast_nanE (A := A) (B := B), cast_safe_log h, cast_safe_atan2 h]

theorem cast_prismkernel_e (x y z r : Fl A) :
    prism.kernel_e (cast x : Fl B) (cast y) (cast z) (cast r) = (prism.kernel_e x y z r).map cast := by
  unfold prism.kernel_e
  castsimp h with [cast_ofNat (A := A) (B := B), cast_half (A := A) (B := B), cast_nanE (A := A) (B := B), cast_safe_log h, cast_safe_atan2 h]

theorem cast_prismkernel_n (x y z r : Fl A) :
    prism.kernel_n (cast x : Fl B) (cast y) (cast z) (cast r) = (prism.kernel_n x y z r).map cast := by
  unfold prism.kernel_n
  castsimp h with [cast_ofNat (A := A) (B := B), cast_half (A := A) (B := B), cast_nanE (A := A) (B := B), cast_safe_log h, cast_safe_atan2 h]

theorem cast_prismkernel_u (x y z r : Fl A) :
    prism.kernel_u (cast x : Fl B) (cast y) (cast z) (cast r) = (prism.kernel_u x y z r).map cast := by
  unfold prism.kernel_u
  castsimp h with [cast_ofNat (A := A) (B := B), cast_half (A := A) (B := B), cast_nanE (A := A) (B := B), cast_safe_log h, cast_safe_atan2 h]

theorem cast_prismkernel_ee (x y z r : Fl A) :
    prism.kernel_ee (cast x : Fl B) (cast y) (cast z) (cast r) = (prism.kernel_ee x y z r).map cast := by
  unfold prism.kernel_ee
  castsimp h with [cast_ofNat (A := A) (B := B), cast_half (A := A) (B := B), cast_nanE (A := A) (B := B), cast_safe_log h, cast_safe_atan2 h]

theorem cast_prismkernel_nn (x y z r : Fl A) :
    prism.kernel_nn (cast x : Fl B) (cast y) (cast z) (cast r) = (prism.kernel_nn x y z r).map cast := by
  unfold prism.kernel_nn
  castsimp h with [cast_ofNat (A := A) (B := B), cast_half (A := A) (B := B), cast_nanE (A := A) (B := B), cast_safe_log h, cast_safe_atan2 h]

theorem cast_prismkernel_uu (x y z r : Fl A) :
    prism.kernel_uu (cast x : Fl B) (cast y) (cast z) (cast r) = (prism.kernel_uu x y z r).map cast := by
  unfold prism.kernel_uu
  castsimp h with [cast_ofNat (A := A) (B := B), cast_half (A := A) (B := B), cast_nanE (A := A) (B := B), cast_safe_log h, cast_safe_atan2 h]

theorem cast_prismkernel_en (x y z r : Fl A) :
    prism.kernel_en (cast x : Fl B) (cast y) (cast z) (cast r) = (prism.kernel_en x y z r).map cast := by
  unfold prism.kernel_en
  castsimp h with [cast_ofNat (A := A) (B := B), cast_half (A := A) (B := B), cast_nanE (A := A) (B := B), cast_safe_log h, cast_safe_atan2 h]

theorem cast_prismkernel_eu (x y z r : Fl A) :
    prism.kernel_eu (cast x : Fl B) (cast y) (cast z) (cast r) = (prism.kernel_eu x y z r).map cast := by
  unfold prism.kernel_eu
  castsimp h with [cast_ofNat (A := A) (B := B), cast_half (A := A) (B := B), cast_nanE (A := A) (B := B), cast_safe_log h, cast_safe_atan2 h]

theorem cast_prismkernel_nu (x y z r : Fl A) :
    prism.kernel_nu (cast x : Fl B) (cast y) (cast z) (cast r) = (prism.kernel_nu x y z r).map cast := by
  unfold prism.kernel_nu
  castsimp h with [cast_ofNat (A := A) (B := B), cast_half (A := A) (B := B), cast_nanE (A := A) (B := B), cast_safe_log h, cast_safe_atan2 h]

theorem cast_prism_kernel_iii (x y z r : Fl A) :
    prism._kernel_iii (cast x : Fl B) (cast y) (cast z) (cast r) = (prism._kernel_iii x y z r).map cast := by
  unfold prism._kernel_iii
  castsimp h with [cast_ofNat (A := A) (B := B), cast_half (A := A) (B := B), cast_nanE (A := A) (B := B), cast_safe_log h]

theorem cast_prism_kernel_iij (x y z r : Fl A) :
    prism._kernel_iij (cast x : Fl B) (cast y) (cast z) (cast r) = (prism._kernel_iij x y z r).map cast := by
  unfold prism._kernel_iij
  castsimp h with [cast_ofNat (A := A) (B := B), cast_half (A := A) (B := B), cast_nanE (A := A) (B := B), cast_safe_log h]

theorem cast_prismkernel_eee (x y z r : Fl A) :
    prism.kernel_eee (cast x : Fl B) (cast y) (cast z) (cast r) = (prism.kernel_eee x y z r).map cast := by
  unfold prism.kernel_eee
  castsimp h with [cast_ofNat (A := A) (B := B), cast_half (A := A) (B := B), cast_nanE (A := A) (B := B), cast_prism_kernel_iii h, cast_prism_kernel_iij h]

theorem cast_prismkernel_nnn (x y z r : Fl A) :
    prism.kernel_nnn (cast x : Fl B) (cast y) (cast z) (cast r) = (prism.kernel_nnn x y z r).map cast := by
  unfold prism.kernel_nnn
  castsimp h with [cast_ofNat (A := A) (B := B), cast_half (A := A) (B := B), cast_nanE (A := A) (B := B), cast_prism_kernel_iii h, cast_prism_kernel_iij h]

theorem cast_prismkernel_uuu (x y z r : Fl A) :
    prism.kernel_uuu (cast x : Fl B) (cast y) (cast z) (cast r) = (prism.kernel_uuu x y z r).map cast := by
  unfold prism.kernel_uuu
  castsimp h with [cast_ofNat (A := A) (B := B), cast_half (A := A) (B := B), cast_nanE (A := A) (B := B), cast_prism_kernel_iii h, cast_prism_kernel_iij h]

theorem cast_prismkernel_een (x y z r : Fl A) :
    prism.kernel_een (cast x : Fl B) (cast y) (cast z) (cast r) = (prism.kernel_een x y z r).map cast := by
  unfold prism.kernel_een
  castsimp h with [cast_ofNat (A := A) (B := B), cast_half (A := A) (B := B), cast_nanE (A := A) (B := B), cast_prism_kernel_iii h, cast_prism_kernel_iij h]

theorem cast_prismkernel_eeu (x y z r : Fl A) :
    prism.kernel_eeu (cast x : Fl B) (cast y) (cast z) (cast r) = (prism.kernel_eeu x y z r).map cast := by
  unfold prism.kernel_eeu
  castsimp h with [cast_ofNat (A := A) (B := B), cast_half (A := A) (B := B), cast_nanE (A := A) (B := B), cast_prism_kernel_iii h, cast_prism_kernel_iij h]

theorem cast_prismkernel_enn (x y z r : Fl A) :
    prism.kernel_enn (cast x : Fl B) (cast y) (cast z) (cast r) = (prism.kernel_enn x y z r).map cast := by
  unfold prism.kernel_enn
  castsimp h with [cast_ofNat (A := A) (B := B), cast_half (A := A) (B := B), cast_nanE (A := A) (B := B), cast_prism_kernel_iii h, cast_prism_kernel_iij h]

theorem cast_prismkernel_nnu (x y z r : Fl A) :
    prism.kernel_nnu (cast x : Fl B) (cast y) (cast z) (cast r) = (prism.kernel_nnu x y z r).map cast := by
  unfold prism.kernel_nnu
  castsimp h with [cast_ofNat (A := A) (B := B), cast_half (A := A) (B := B), cast_nanE (A := A) (B := B), cast_prism_kernel_iii h, cast_prism_kernel_iij h]

theorem cast_prismkernel_euu (x y z r : Fl A) :
    prism.kernel_euu (cast x : Fl B) (cast y) (cast z) (cast r) = (prism.kernel_euu x y z r).map cast := by
  unfold prism.kernel_euu
  castsimp h with [cast_ofNat (A := A) (B := B), cast_half (A := A) (B := B), cast_nanE (A := A) (B := B), cast_prism_kernel_iii h, cast_prism_kernel_iij h]

theorem cast_prismkernel_nuu (x y z r : Fl A) :
    prism.kernel_nuu (cast x : Fl B) (cast y) (cast z) (cast r) = (prism.kernel_nuu x y z r).map cast := by
  unfold prism.kernel_nuu
  castsimp h with [cast_ofNat (A := A) (B := B), cast_half (A := A) (B := B), cast_nanE (A := A) (B := B), cast_prism_kernel_iii h, cast_prism_kernel_iij h]

theorem cast_prismkernel_enu (x y z r : Fl A) :
    prism.kernel_enu (cast x : Fl B) (cast y) (cast z) (cast r) = (prism.kernel_enu x y z r).map cast := by
  unfold prism.kernel_enu
  castsimp h with [cast_ofNat (A := A) (B := B), cast_half (A := A) (B := B), cast_nanE (A := A) (B := B), cast_prism_kernel_iii h, cast_prism_kernel_iij h]


theorem cast_vker {K : prism.Kernel A} {K' : prism.Kernel B} (hK : ∀ x y z r : Fl A, K' (cast x) (cast y) (cast z) (cast r) = (K x y z r).map cast) (x y z : Fl A) :
    prism.vker K' (cast x : Fl B) (cast y) (cast z) = (prism.vker K x y z).map cast := by
  unfold prism.vker prism.vrad
  castsimp h with [hK]

omit h in
theorem cast_sgn (m : ℕ) : (prism.sgn m : Fl B) = cast (prism.sgn m : Fl A) := rfl

theorem cast_evaluate_kernel {K : prism.Kernel A} {K' : prism.Kernel B} (hK : ∀ x y z r : Fl A, K' (cast x) (cast y) (cast z) (cast r) = (K x y z r).map cast) (e n u w E s N b t : Fl A) :
    prism._evaluate_kernel (cast e : Fl B) (cast n) (cast u) (cast w) (cast E) (cast s) (cast N) (cast b) (cast t) K' = (prism._evaluate_kernel e n u w E s N b t K).map cast := by
  rw [prism.evaluate_kernel_unroll, prism.evaluate_kernel_unroll]
  castsimp h with [cast_vker h hK, cast_sgn (A := A) (B := B), cast_ofNat (A := A) (B := B)]

theorem cast_calculate_component {K1 K2 K3 : prism.Kernel A} {K1' K2' K3' : prism.Kernel B} (h1 : ∀ x y z r : Fl A, K1' (cast x) (cast y) (cast z) (cast r) = (K1 x y z r).map cast) (h2 : ∀ x y z r : Fl A, K2' (cast x) (cast y) (cast z) (cast r) = (K2 x y z r).map cast) (h3 : ∀ x y z r : Fl A, K3' (cast x) (cast y) (cast z) (cast r) = (K3 x y z r).map cast)
    (e n u w E s N b t Me Mn Mu : Fl A) :
    prism._calculate_component (cast e : Fl B) (cast n) (cast u) (cast w) (cast E) (cast s) (cast N) (cast b) (cast t) (cast Me) (cast Mn) (cast Mu) K1' K2' K3' = (prism._calculate_component e n u w E s N b t Me Mn Mu K1 K2 K3).map cast := by
  rw [prism.calculate_component_unroll, prism.calculate_component_unroll]
  castsimp h with [cast_vker h h1, cast_vker h h2, cast_vker h h3, cast_sgn (A := A) (B := B), cast_ofNat (A := A) (B := B)]

omit h in
theorem cast_is_interior_point (e n u w E s N b t : Fl A) :
    prism.is_interior_point (cast e : Fl B) (cast n) (cast u) (cast w) (cast E) (cast s) (cast N) (cast b) (cast t) = prism.is_interior_point e n u w E s N b t := by
  simp only [prism.is_interior_point, cast_lt, cast_le, cast_feq]

omit h in
theorem cast_is_point_on_easting_edge (e n u w E s N b t : Fl A) :
    prism.is_point_on_easting_edge (cast e : Fl B) (cast n) (cast u) (cast w) (cast E) (cast s) (cast N) (cast b) (cast t) = prism.is_point_on_easting_edge e n u w E s N b t := by
  simp only [prism.is_point_on_easting_edge, cast_lt, cast_le, cast_feq]

omit h in
theorem cast_is_point_on_northing_edge (e n u w E s N b t : Fl A) :
    prism.is_point_on_northing_edge (cast e : Fl B) (cast n) (cast u) (cast w) (cast E) (cast s) (cast N) (cast b) (cast t) = prism.is_point_on_northing_edge e n u w E s N b t := by
  simp only [prism.is_point_on_northing_edge, cast_lt, cast_le, cast_feq]

omit h in
theorem cast_is_point_on_upward_edge (e n u w E s N b t : Fl A) :
    prism.is_point_on_upward_edge (cast e : Fl B) (cast n) (cast u) (cast w) (cast E) (cast s) (cast N) (cast b) (cast t) = prism.is_point_on_upward_edge e n u w E s N b t := by
  simp only [prism.is_point_on_upward_edge, cast_lt, cast_le, cast_feq]

omit h in
theorem cast_is_point_on_edge (e n u w E s N b t : Fl A) :
    prism.is_point_on_edge (cast e : Fl B) (cast n) (cast u) (cast w) (cast E) (cast s) (cast N) (cast b) (cast t) = prism.is_point_on_edge e n u w E s N b t := by
  simp only [prism.is_point_on_edge, cast_is_point_on_easting_edge, cast_is_point_on_northing_edge, cast_is_point_on_upward_edge, cast_lt, cast_le, cast_feq]

omit h in
theorem cast_is_point_on_east_face (e n u w E s N b t : Fl A) :
    prism.is_point_on_east_face (cast e : Fl B) (cast n) (cast u) (cast w) (cast E) (cast s) (cast N) (cast b) (cast t) = prism.is_point_on_east_face e n u w E s N b t := by
  simp only [prism.is_point_on_east_face, cast_lt, cast_le, cast_feq]

omit h in
theorem cast_is_point_on_north_face (e n u w E s N b t : Fl A) :
    prism.is_point_on_north_face (cast e : Fl B) (cast n) (cast u) (cast w) (cast E) (cast s) (cast N) (cast b) (cast t) = prism.is_point_on_north_face e n u w E s N b t := by
  simp only [prism.is_point_on_north_face, cast_lt, cast_le, cast_feq]

omit h in
theorem cast_is_point_on_top_face (e n u w E s N b t : Fl A) :
    prism.is_point_on_top_face (cast e : Fl B) (cast n) (cast u) (cast w) (cast E) (cast s) (cast N) (cast b) (cast t) = prism.is_point_on_top_face e n u w E s N b t := by
  simp only [prism.is_point_on_top_face, cast_lt, cast_le, cast_feq]

theorem cast_gc : (GRAVITATIONAL_CONST : Fl B) = cast (GRAVITATIONAL_CONST : Fl A) := cast_lit h _
theorem cast_mu0 : (VACUUM_MAGNETIC_PERMEABILITY : Fl B) = cast (VACUUM_MAGNETIC_PERMEABILITY : Fl A) := cast_lit h _

theorem cast_prism_gravity_pot (e n u w E s N b t d : Fl A) :
    prism.gravity_pot (cast e : Fl B) (cast n) (cast u) (cast w) (cast E) (cast s) (cast N) (cast b) (cast t) (cast d) = (prism.gravity_pot e n u w E s N b t d).map cast := by
  unfold prism.gravity_pot
  castsimp h with [cast_evaluate_kernel h (cast_prismkernel_pot h), cast_ofNat (A := A) (B := B), cast_nanE (A := A) (B := B), cast_gc h, cast_mu0 h, cast_is_interior_point, cast_is_point_on_easting_edge, cast_is_point_on_northing_edge, cast_is_point_on_upward_edge, cast_is_point_on_edge, cast_is_point_on_east_face, cast_is_point_on_north_face, cast_is_point_on_top_face]

theorem cast_prism_gravity_e (e n u w E s N b t d : Fl A) :
    prism.gravity_e (cast e : Fl B) (cast n) (cast u) (cast w) (cast E) (cast s) (cast N) (cast b) (cast t) (cast d) = (prism.gravity_e e n u w E s N b t d).map cast := by
  unfold prism.gravity_e
  castsimp h with [cast_evaluate_kernel h (cast_prismkernel_e h), cast_ofNat (A := A) (B := B), cast_nanE (A := A) (B := B), cast_gc h, cast_mu0 h, cast_is_interior_point, cast_is_point_on_easting_edge, cast_is_point_on_northing_edge, cast_is_point_on_upward_edge, cast_is_point_on_edge, cast_is_point_on_east_face, cast_is_point_on_north_face, cast_is_point_on_top_face]

theorem cast_prism_gravity_n (e n u w E s N b t d : Fl A) :
    prism.gravity_n (cast e : Fl B) (cast n) (cast u) (cast w) (cast E) (cast s) (cast N) (cast b) (cast t) (cast d) = (prism.gravity_n e n u w E s N b t d).map cast := by
  unfold prism.gravity_n
  castsimp h with [cast_evaluate_kernel h (cast_prismkernel_n h), cast_ofNat (A := A) (B := B), cast_nanE (A := A) (B := B), cast_gc h, cast_mu0 h, cast_is_interior_point, cast_is_point_on_easting_edge, cast_is_point_on_northing_edge, cast_is_point_on_upward_edge, cast_is_point_on_edge, cast_is_point_on_east_face, cast_is_point_on_north_face, cast_is_point_on_top_face]

theorem cast_prism_gravity_u (e n u w E s N b t d : Fl A) :
    prism.gravity_u (cast e : Fl B) (cast n) (cast u) (cast w) (cast E) (cast s) (cast N) (cast b) (cast t) (cast d) = (prism.gravity_u e n u w E s N b t d).map cast := by
  unfold prism.gravity_u
  castsimp h with [cast_evaluate_kernel h (cast_prismkernel_u h), cast_ofNat (A := A) (B := B), cast_nanE (A := A) (B := B), cast_gc h, cast_mu0 h, cast_is_interior_point, cast_is_point_on_easting_edge, cast_is_point_on_northing_edge, cast_is_point_on_upward_edge, cast_is_point_on_edge, cast_is_point_on_east_face, cast_is_point_on_north_face, cast_is_point_on_top_face]

theorem cast_prism_gravity_ee (e n u w E s N b t d : Fl A) :
    prism.gravity_ee (cast e : Fl B) (cast n) (cast u) (cast w) (cast E) (cast s) (cast N) (cast b) (cast t) (cast d) = (prism.gravity_ee e n u w E s N b t d).map cast := by
  unfold prism.gravity_ee
  castsimp h with [cast_evaluate_kernel h (cast_prismkernel_ee h), cast_ofNat (A := A) (B := B), cast_nanE (A := A) (B := B), cast_gc h, cast_mu0 h, cast_is_interior_point, cast_is_point_on_easting_edge, cast_is_point_on_northing_edge, cast_is_point_on_upward_edge, cast_is_point_on_edge, cast_is_point_on_east_face, cast_is_point_on_north_face, cast_is_point_on_top_face]

theorem cast_prism_gravity_nn (e n u w E s N b t d : Fl A) :
    prism.gravity_nn (cast e : Fl B) (cast n) (cast u) (cast w) (cast E) (cast s) (cast N) (cast b) (cast t) (cast d) = (prism.gravity_nn e n u w E s N b t d).map cast := by
  unfold prism.gravity_nn
  castsimp h with [cast_evaluate_kernel h (cast_prismkernel_nn h), cast_ofNat (A := A) (B := B), cast_nanE (A := A) (B := B), cast_gc h, cast_mu0 h, cast_is_interior_point, cast_is_point_on_easting_edge, cast_is_point_on_northing_edge, cast_is_point_on_upward_edge, cast_is_point_on_edge, cast_is_point_on_east_face, cast_is_point_on_north_face, cast_is_point_on_top_face]

theorem cast_prism_gravity_uu (e n u w E s N b t d : Fl A) :
    prism.gravity_uu (cast e : Fl B) (cast n) (cast u) (cast w) (cast E) (cast s) (cast N) (cast b) (cast t) (cast d) = (prism.gravity_uu e n u w E s N b t d).map cast := by
  unfold prism.gravity_uu
  castsimp h with [cast_evaluate_kernel h (cast_prismkernel_uu h), cast_ofNat (A := A) (B := B), cast_nanE (A := A) (B := B), cast_gc h, cast_mu0 h, cast_is_interior_point, cast_is_point_on_easting_edge, cast_is_point_on_northing_edge, cast_is_point_on_upward_edge, cast_is_point_on_edge, cast_is_point_on_east_face, cast_is_point_on_north_face, cast_is_point_on_top_face]

theorem cast_prism_gravity_en (e n u w E s N b t d : Fl A) :
    prism.gravity_en (cast e : Fl B) (cast n) (cast u) (cast w) (cast E) (cast s) (cast N) (cast b) (cast t) (cast d) = (prism.gravity_en e n u w E s N b t d).map cast := by
  unfold prism.gravity_en
  castsimp h with [cast_evaluate_kernel h (cast_prismkernel_en h), cast_ofNat (A := A) (B := B), cast_nanE (A := A) (B := B), cast_gc h, cast_mu0 h, cast_is_interior_point, cast_is_point_on_easting_edge, cast_is_point_on_northing_edge, cast_is_point_on_upward_edge, cast_is_point_on_edge, cast_is_point_on_east_face, cast_is_point_on_north_face, cast_is_point_on_top_face]

theorem cast_prism_gravity_eu (e n u w E s N b t d : Fl A) :
    prism.gravity_eu (cast e : Fl B) (cast n) (cast u) (cast w) (cast E) (cast s) (cast N) (cast b) (cast t) (cast d) = (prism.gravity_eu e n u w E s N b t d).map cast := by
  unfold prism.gravity_eu
  castsimp h with [cast_evaluate_kernel h (cast_prismkernel_eu h), cast_ofNat (A := A) (B := B), cast_nanE (A := A) (B := B), cast_gc h, cast_mu0 h, cast_is_interior_point, cast_is_point_on_easting_edge, cast_is_point_on_northing_edge, cast_is_point_on_upward_edge, cast_is_point_on_edge, cast_is_point_on_east_face, cast_is_point_on_north_face, cast_is_point_on_top_face]

theorem cast_prism_gravity_nu (e n u w E s N b t d : Fl A) :
    prism.gravity_nu (cast e : Fl B) (cast n) (cast u) (cast w) (cast E) (cast s) (cast N) (cast b) (cast t) (cast d) = (prism.gravity_nu e n u w E s N b t d).map cast := by
  unfold prism.gravity_nu
  castsimp h with [cast_evaluate_kernel h (cast_prismkernel_nu h), cast_ofNat (A := A) (B := B), cast_nanE (A := A) (B := B), cast_gc h, cast_mu0 h, cast_is_interior_point, cast_is_point_on_easting_edge, cast_is_point_on_northing_edge, cast_is_point_on_upward_edge, cast_is_point_on_edge, cast_is_point_on_east_face, cast_is_point_on_north_face, cast_is_point_on_top_face]

theorem cast_prism_magnetic_e (e n u w E s N b t Me Mn Mu : Fl A) :
    prism.magnetic_e (cast e : Fl B) (cast n) (cast u) (cast w) (cast E) (cast s) (cast N) (cast b) (cast t) (cast Me) (cast Mn) (cast Mu) = (prism.magnetic_e e n u w E s N b t Me Mn Mu).map cast := by
  unfold prism.magnetic_e
  castsimp h with [cast_calculate_component h (cast_prismkernel_ee h) (cast_prismkernel_en h) (cast_prismkernel_eu h), cast_ofNat (A := A) (B := B), cast_nanE (A := A) (B := B), cast_gc h, cast_mu0 h, cast_is_interior_point, cast_is_point_on_easting_edge, cast_is_point_on_northing_edge, cast_is_point_on_upward_edge, cast_is_point_on_edge, cast_is_point_on_east_face, cast_is_point_on_north_face, cast_is_point_on_top_face]

theorem cast_prism_magnetic_n (e n u w E s N b t Me Mn Mu : Fl A) :
    prism.magnetic_n (cast e : Fl B) (cast n) (cast u) (cast w) (cast E) (cast s) (cast N) (cast b) (cast t) (cast Me) (cast Mn) (cast Mu) = (prism.magnetic_n e n u w E s N b t Me Mn Mu).map cast := by
  unfold prism.magnetic_n
  castsimp h with [cast_calculate_component h (cast_prismkernel_en h) (cast_prismkernel_nn h) (cast_prismkernel_nu h), cast_ofNat (A := A) (B := B), cast_nanE (A := A) (B := B), cast_gc h, cast_mu0 h, cast_is_interior_point, cast_is_point_on_easting_edge, cast_is_point_on_northing_edge, cast_is_point_on_upward_edge, cast_is_point_on_edge, cast_is_point_on_east_face, cast_is_point_on_north_face, cast_is_point_on_top_face]

theorem cast_prism_magnetic_u (e n u w E s N b t Me Mn Mu : Fl A) :
    prism.magnetic_u (cast e : Fl B) (cast n) (cast u) (cast w) (cast E) (cast s) (cast N) (cast b) (cast t) (cast Me) (cast Mn) (cast Mu) = (prism.magnetic_u e n u w E s N b t Me Mn Mu).map cast := by
  unfold prism.magnetic_u
  castsimp h with [cast_calculate_component h (cast_prismkernel_eu h) (cast_prismkernel_nu h) (cast_prismkernel_uu h), cast_ofNat (A := A) (B := B), cast_nanE (A := A) (B := B), cast_gc h, cast_mu0 h, cast_is_interior_point, cast_is_point_on_easting_edge, cast_is_point_on_northing_edge, cast_is_point_on_upward_edge, cast_is_point_on_edge, cast_is_point_on_east_face, cast_is_point_on_north_face, cast_is_point_on_top_face]

theorem cast_prism_magnetic_ee (e n u w E s N b t Me Mn Mu : Fl A) :
    prism.magnetic_ee (cast e : Fl B) (cast n) (cast u) (cast w) (cast E) (cast s) (cast N) (cast b) (cast t) (cast Me) (cast Mn) (cast Mu) = (prism.magnetic_ee e n u w E s N b t Me Mn Mu).map cast := by
  unfold prism.magnetic_ee
  castsimp h with [cast_calculate_component h (cast_prismkernel_eee h) (cast_prismkernel_een h) (cast_prismkernel_eeu h), cast_ofNat (A := A) (B := B), cast_nanE (A := A) (B := B), cast_gc h, cast_mu0 h, cast_is_interior_point, cast_is_point_on_easting_edge, cast_is_point_on_northing_edge, cast_is_point_on_upward_edge, cast_is_point_on_edge, cast_is_point_on_east_face, cast_is_point_on_north_face, cast_is_point_on_top_face]

theorem cast_prism_magnetic_nn (e n u w E s N b t Me Mn Mu : Fl A) :
    prism.magnetic_nn (cast e : Fl B) (cast n) (cast u) (cast w) (cast E) (cast s) (cast N) (cast b) (cast t) (cast Me) (cast Mn) (cast Mu) = (prism.magnetic_nn e n u w E s N b t Me Mn Mu).map cast := by
  unfold prism.magnetic_nn
  castsimp h with [cast_calculate_component h (cast_prismkernel_enn h) (cast_prismkernel_nnn h) (cast_prismkernel_nnu h), cast_ofNat (A := A) (B := B), cast_nanE (A := A) (B := B), cast_gc h, cast_mu0 h, cast_is_interior_point, cast_is_point_on_easting_edge, cast_is_point_on_northing_edge, cast_is_point_on_upward_edge, cast_is_point_on_edge, cast_is_point_on_east_face, cast_is_point_on_north_face, cast_is_point_on_top_face]

theorem cast_prism_magnetic_uu (e n u w E s N b t Me Mn Mu : Fl A) :
    prism.magnetic_uu (cast e : Fl B) (cast n) (cast u) (cast w) (cast E) (cast s) (cast N) (cast b) (cast t) (cast Me) (cast Mn) (cast Mu) = (prism.magnetic_uu e n u w E s N b t Me Mn Mu).map cast := by
  unfold prism.magnetic_uu
  castsimp h with [cast_calculate_component h (cast_prismkernel_euu h) (cast_prismkernel_nuu h) (cast_prismkernel_uuu h), cast_ofNat (A := A) (B := B), cast_nanE (A := A) (B := B), cast_gc h, cast_mu0 h, cast_is_interior_point, cast_is_point_on_easting_edge, cast_is_point_on_northing_edge, cast_is_point_on_upward_edge, cast_is_point_on_edge, cast_is_point_on_east_face, cast_is_point_on_north_face, cast_is_point_on_top_face]

theorem cast_prism_magnetic_en (e n u w E s N b t Me Mn Mu : Fl A) :
    prism.magnetic_en (cast e : Fl B) (cast n) (cast u) (cast w) (cast E) (cast s) (cast N) (cast b) (cast t) (cast Me) (cast Mn) (cast Mu) = (prism.magnetic_en e n u w E s N b t Me Mn Mu).map cast := by
  unfold prism.magnetic_en
  castsimp h with [cast_calculate_component h (cast_prismkernel_een h) (cast_prismkernel_enn h) (cast_prismkernel_enu h), cast_ofNat (A := A) (B := B), cast_nanE (A := A) (B := B), cast_gc h, cast_mu0 h, cast_is_interior_point, cast_is_point_on_easting_edge, cast_is_point_on_northing_edge, cast_is_point_on_upward_edge, cast_is_point_on_edge, cast_is_point_on_east_face, cast_is_point_on_north_face, cast_is_point_on_top_face]

theorem cast_prism_magnetic_eu (e n u w E s N b t Me Mn Mu : Fl A) :
    prism.magnetic_eu (cast e : Fl B) (cast n) (cast u) (cast w) (cast E) (cast s) (cast N) (cast b) (cast t) (cast Me) (cast Mn) (cast Mu) = (prism.magnetic_eu e n u w E s N b t Me Mn Mu).map cast := by
  unfold prism.magnetic_eu
  castsimp h with [cast_calculate_component h (cast_prismkernel_eeu h) (cast_prismkernel_enu h) (cast_prismkernel_euu h), cast_ofNat (A := A) (B := B), cast_nanE (A := A) (B := B), cast_gc h, cast_mu0 h, cast_is_interior_point, cast_is_point_on_easting_edge, cast_is_point_on_northing_edge, cast_is_point_on_upward_edge, cast_is_point_on_edge, cast_is_point_on_east_face, cast_is_point_on_north_face, cast_is_point_on_top_face]

theorem cast_prism_magnetic_nu (e n u w E s N b t Me Mn Mu : Fl A) :
    prism.magnetic_nu (cast e : Fl B) (cast n) (cast u) (cast w) (cast E) (cast s) (cast N) (cast b) (cast t) (cast Me) (cast Mn) (cast Mu) = (prism.magnetic_nu e n u w E s N b t Me Mn Mu).map cast := by
  unfold prism.magnetic_nu
  castsimp h with [cast_calculate_component h (cast_prismkernel_enu h) (cast_prismkernel_nnu h) (cast_prismkernel_nuu h), cast_ofNat (A := A) (B := B), cast_nanE (A := A) (B := B), cast_gc h, cast_mu0 h, cast_is_interior_point, cast_is_point_on_easting_edge, cast_is_point_on_northing_edge, cast_is_point_on_upward_edge, cast_is_point_on_edge, cast_is_point_on_east_face, cast_is_point_on_north_face, cast_is_point_on_top_face]


/-- the same triple in another arithmetic -/
def cast3 (t : Fl A × Fl A × Fl A) : Fl B × Fl B × Fl B := (cast t.1, cast t.2.1, cast t.2.2)

theorem cast_fieldStep (m : ℕ) (x y z Me Mn Mu : Fl A) (acc : Fl A × Fl A × Fl A) :
    prism.fieldStep m (cast x : Fl B) (cast y) (cast z) (cast Me) (cast Mn) (cast Mu) (cast3 acc)
      = (prism.fieldStep m x y z Me Mn Mu acc).map cast3 := by
  unfold prism.fieldStep
  castsimp h with [cast_vker h (cast_prismkernel_ee h), cast_vker h (cast_prismkernel_nn h), cast_vker h (cast_prismkernel_uu h),
    cast_vker h (cast_prismkernel_en h), cast_vker h (cast_prismkernel_eu h), cast_vker h (cast_prismkernel_nu h),
    cast_sgn (A := A) (B := B), cast3]

theorem cast_fieldTail (e n u w E s N b t Me Mn Mu : Fl A) (acc : Fl A × Fl A × Fl A) :
    prism.fieldTail (cast e : Fl B) (cast n) (cast u) (cast w) (cast E) (cast s) (cast N) (cast b) (cast t) (cast Me) (cast Mn) (cast Mu) (cast3 acc) = (prism.fieldTail e n u w E s N b t Me Mn Mu acc).map cast3 := by
  unfold prism.fieldTail
  castsimp h with [cast3, cast_ofNat (A := A) (B := B), cast_mu0 h, cast_is_point_on_east_face, cast_is_point_on_north_face,
    cast_is_point_on_top_face, apply_ite (cast : Fl A → Fl B)]
  refine bind_congr fun c => bind_congr fun d => ?_
  split <;> split <;> split <;> castsimp h with []

theorem cast_prism_magnetic_field (e n u w E s N b t Me Mn Mu : Fl A) :
    prism.magnetic_field (cast e : Fl B) (cast n) (cast u) (cast w) (cast E) (cast s) (cast N) (cast b) (cast t) (cast Me) (cast Mn) (cast Mu) = (prism.magnetic_field e n u w E s N b t Me Mn Mu).map cast3 := by
  rw [prism.magnetic_field_unroll, prism.magnetic_field_unroll, prism.fieldLoop_unroll, prism.fieldLoop_unroll,
    cast_is_point_on_edge, cast_is_interior_point]
  have h0 : ((0 : Fl B), (0 : Fl B), (0 : Fl B)) = cast3 ((0 : Fl A), (0 : Fl A), (0 : Fl A)) := rfl
  have h1 : (Except.ok (nan, nan, nan) : Py (Fl B × Fl B × Fl B)) = (Except.ok ((nan : Fl A), (nan : Fl A), (nan : Fl A)) : Py _).map cast3 :=
    rfl
  castsimp h with [h0, h1, cast_fieldStep h, cast_fieldTail h, bind_assoc]

theorem cast_distance_cartesian (a b c d e f : Fl A) :
    utils.distance_cartesian (cast a : Fl B) (cast b) (cast c) (cast d) (cast e) (cast f)
      = (utils.distance_cartesian a b c d e f).map cast := by
  unfold utils.distance_cartesian
  castsimp h with []

theorem cast_distance_spherical_core (a b c d e f g i : Fl A) :
    utils.distance_spherical_core (cast a : Fl B) (cast b) (cast c) (cast d) (cast e) (cast f) (cast g) (cast i)
      = (utils.distance_spherical_core a b c d e f g i).map cast3 := by
  unfold utils.distance_spherical_core
  castsimp h with [cast_ofNat (A := A) (B := B), cast3]

theorem cast_distance_spherical (a b c d e f : Fl A) :
    utils.distance_spherical (cast a : Fl B) (cast b) (cast c) (cast d) (cast e) (cast f)
      = (utils.distance_spherical a b c d e f).map cast := by
  unfold utils.distance_spherical
  castsimp h with [cast_distance_spherical_core h, cast3]

end Choclo
