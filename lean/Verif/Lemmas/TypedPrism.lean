import Verif.Lemmas.Typed

/-! # Integer arguments: dipoles and prisms -/

set_option linter.unusedSimpArgs false
set_option linter.unusedTactic false
set_option linter.unreachableTactic false
set_option linter.unusedVariables false

namespace Choclo

variable {A : Arith}

namespace Typed

variable {L C D M : ℕ}

namespace dipole

theorem et_magnetic_e (ok : IntOK A L) (hC : 12 * C ^ 2 ≤ L) (h2 : 2 * C ≤ L) (hM : M ≤ L) (h18 : 18 * (M * C) ≤ L) (h36 : 36 * (M * C ^ 2) ≤ L)
    (hL : 15 ≤ L)
    {a b c d e f mx my mz : TFl A} {a' b' c' d' e' f' mx' my' mz' : Fl A}
    (h_a : Rep L (C) a a') (h_b : Rep L (C) b b') (h_c : Rep L (C) c c') (h_d : Rep L (C) d d') (h_e : Rep L (C) e e') (h_f : Rep L (C) f f') (h_mx : Rep L (M) mx mx') (h_my : Rep L (M) my my') (h_mz : Rep L (M) mz mz') :
    ET TFl.flt (magnetic_e a b c d e f mx my mz) (Choclo.dipole.magnetic_e a' b' c' d' e' f' mx' my' mz') := by
  unfold magnetic_e Choclo.dipole.magnetic_e
  (try dsimp only)
  repeat' (first
    | et_step)

theorem et_magnetic_n (ok : IntOK A L) (hC : 12 * C ^ 2 ≤ L) (h2 : 2 * C ≤ L) (hM : M ≤ L) (h18 : 18 * (M * C) ≤ L) (h36 : 36 * (M * C ^ 2) ≤ L)
    (hL : 15 ≤ L)
    {a b c d e f mx my mz : TFl A} {a' b' c' d' e' f' mx' my' mz' : Fl A}
    (h_a : Rep L (C) a a') (h_b : Rep L (C) b b') (h_c : Rep L (C) c c') (h_d : Rep L (C) d d') (h_e : Rep L (C) e e') (h_f : Rep L (C) f f') (h_mx : Rep L (M) mx mx') (h_my : Rep L (M) my my') (h_mz : Rep L (M) mz mz') :
    ET TFl.flt (magnetic_n a b c d e f mx my mz) (Choclo.dipole.magnetic_n a' b' c' d' e' f' mx' my' mz') := by
  unfold magnetic_n Choclo.dipole.magnetic_n
  (try dsimp only)
  repeat' (first
    | et_step)

theorem et_magnetic_u (ok : IntOK A L) (hC : 12 * C ^ 2 ≤ L) (h2 : 2 * C ≤ L) (hM : M ≤ L) (h18 : 18 * (M * C) ≤ L) (h36 : 36 * (M * C ^ 2) ≤ L)
    (hL : 15 ≤ L)
    {a b c d e f mx my mz : TFl A} {a' b' c' d' e' f' mx' my' mz' : Fl A}
    (h_a : Rep L (C) a a') (h_b : Rep L (C) b b') (h_c : Rep L (C) c c') (h_d : Rep L (C) d d') (h_e : Rep L (C) e e') (h_f : Rep L (C) f f') (h_mx : Rep L (M) mx mx') (h_my : Rep L (M) my my') (h_mz : Rep L (M) mz mz') :
    ET TFl.flt (magnetic_u a b c d e f mx my mz) (Choclo.dipole.magnetic_u a' b' c' d' e' f' mx' my' mz') := by
  unfold magnetic_u Choclo.dipole.magnetic_u
  (try dsimp only)
  repeat' (first
    | et_step)

theorem et_magnetic_field (ok : IntOK A L) (hC : 12 * C ^ 2 ≤ L) (h2 : 2 * C ≤ L) (hM : M ≤ L) (h18 : 18 * (M * C) ≤ L) (h36 : 36 * (M * C ^ 2) ≤ L)
    (hL : 15 ≤ L)
    {a b c d e f mx my mz : TFl A} {a' b' c' d' e' f' mx' my' mz' : Fl A}
    (h_a : Rep L (C) a a') (h_b : Rep L (C) b b') (h_c : Rep L (C) c c') (h_d : Rep L (C) d d') (h_e : Rep L (C) e e') (h_f : Rep L (C) f f') (h_mx : Rep L (M) mx mx') (h_my : Rep L (M) my my') (h_mz : Rep L (M) mz mz') :
    ET TFl.flt3 (magnetic_field a b c d e f mx my mz) (Choclo.dipole.magnetic_field a' b' c' d' e' f' mx' my' mz') := by
  unfold magnetic_field Choclo.dipole.magnetic_field
  (try dsimp only)
  repeat' (first
    | et_step)

end dipole

namespace prism

theorem is_interior_point_typed (ok : IntOK A L) {e n u w E s N b t : TFl A} {e' n' u' w' E' s' N' b' t' : Fl A}
    (h_e : Rep L C e e') (h_n : Rep L C n n') (h_u : Rep L C u u') (h_w : Rep L C w w') (h_E : Rep L C E E') (h_s : Rep L C s s') (h_N : Rep L C N N') (h_b : Rep L C b b') (h_t : Rep L C t t') :
    is_interior_point e n u w E s N b t = Choclo.prism.is_interior_point e' n' u' w' E' s' N' b' t' := by
  unfold is_interior_point Choclo.prism.is_interior_point 
  tst

theorem is_point_on_easting_edge_typed (ok : IntOK A L) {e n u w E s N b t : TFl A} {e' n' u' w' E' s' N' b' t' : Fl A}
    (h_e : Rep L C e e') (h_n : Rep L C n n') (h_u : Rep L C u u') (h_w : Rep L C w w') (h_E : Rep L C E E') (h_s : Rep L C s s') (h_N : Rep L C N N') (h_b : Rep L C b b') (h_t : Rep L C t t') :
    is_point_on_easting_edge e n u w E s N b t = Choclo.prism.is_point_on_easting_edge e' n' u' w' E' s' N' b' t' := by
  unfold is_point_on_easting_edge Choclo.prism.is_point_on_easting_edge 
  tst

theorem is_point_on_northing_edge_typed (ok : IntOK A L) {e n u w E s N b t : TFl A} {e' n' u' w' E' s' N' b' t' : Fl A}
    (h_e : Rep L C e e') (h_n : Rep L C n n') (h_u : Rep L C u u') (h_w : Rep L C w w') (h_E : Rep L C E E') (h_s : Rep L C s s') (h_N : Rep L C N N') (h_b : Rep L C b b') (h_t : Rep L C t t') :
    is_point_on_northing_edge e n u w E s N b t = Choclo.prism.is_point_on_northing_edge e' n' u' w' E' s' N' b' t' := by
  unfold is_point_on_northing_edge Choclo.prism.is_point_on_northing_edge 
  tst

theorem is_point_on_upward_edge_typed (ok : IntOK A L) {e n u w E s N b t : TFl A} {e' n' u' w' E' s' N' b' t' : Fl A}
    (h_e : Rep L C e e') (h_n : Rep L C n n') (h_u : Rep L C u u') (h_w : Rep L C w w') (h_E : Rep L C E E') (h_s : Rep L C s s') (h_N : Rep L C N N') (h_b : Rep L C b b') (h_t : Rep L C t t') :
    is_point_on_upward_edge e n u w E s N b t = Choclo.prism.is_point_on_upward_edge e' n' u' w' E' s' N' b' t' := by
  unfold is_point_on_upward_edge Choclo.prism.is_point_on_upward_edge 
  tst

theorem is_point_on_edge_typed (ok : IntOK A L) {e n u w E s N b t : TFl A} {e' n' u' w' E' s' N' b' t' : Fl A}
    (h_e : Rep L C e e') (h_n : Rep L C n n') (h_u : Rep L C u u') (h_w : Rep L C w w') (h_E : Rep L C E E') (h_s : Rep L C s s') (h_N : Rep L C N N') (h_b : Rep L C b b') (h_t : Rep L C t t') :
    is_point_on_edge e n u w E s N b t = Choclo.prism.is_point_on_edge e' n' u' w' E' s' N' b' t' := by
  unfold is_point_on_edge Choclo.prism.is_point_on_edge is_point_on_easting_edge Choclo.prism.is_point_on_easting_edge is_point_on_northing_edge Choclo.prism.is_point_on_northing_edge is_point_on_upward_edge Choclo.prism.is_point_on_upward_edge
  tst

theorem is_point_on_east_face_typed (ok : IntOK A L) {e n u w E s N b t : TFl A} {e' n' u' w' E' s' N' b' t' : Fl A}
    (h_e : Rep L C e e') (h_n : Rep L C n n') (h_u : Rep L C u u') (h_w : Rep L C w w') (h_E : Rep L C E E') (h_s : Rep L C s s') (h_N : Rep L C N N') (h_b : Rep L C b b') (h_t : Rep L C t t') :
    is_point_on_east_face e n u w E s N b t = Choclo.prism.is_point_on_east_face e' n' u' w' E' s' N' b' t' := by
  unfold is_point_on_east_face Choclo.prism.is_point_on_east_face 
  tst

theorem is_point_on_north_face_typed (ok : IntOK A L) {e n u w E s N b t : TFl A} {e' n' u' w' E' s' N' b' t' : Fl A}
    (h_e : Rep L C e e') (h_n : Rep L C n n') (h_u : Rep L C u u') (h_w : Rep L C w w') (h_E : Rep L C E E') (h_s : Rep L C s s') (h_N : Rep L C N N') (h_b : Rep L C b b') (h_t : Rep L C t t') :
    is_point_on_north_face e n u w E s N b t = Choclo.prism.is_point_on_north_face e' n' u' w' E' s' N' b' t' := by
  unfold is_point_on_north_face Choclo.prism.is_point_on_north_face 
  tst

theorem is_point_on_top_face_typed (ok : IntOK A L) {e n u w E s N b t : TFl A} {e' n' u' w' E' s' N' b' t' : Fl A}
    (h_e : Rep L C e e') (h_n : Rep L C n n') (h_u : Rep L C u u') (h_w : Rep L C w w') (h_E : Rep L C E E') (h_s : Rep L C s s') (h_N : Rep L C N N') (h_b : Rep L C b b') (h_t : Rep L C t t') :
    is_point_on_top_face e n u w E s N b t = Choclo.prism.is_point_on_top_face e' n' u' w' E' s' N' b' t' := by
  unfold is_point_on_top_face Choclo.prism.is_point_on_top_face 
  tst

theorem et_safe_atan2 (ok : IntOK A L) (hL : 15 ≤ L)
    {y x : TFl A} {y' x' : Fl A}
    (h_y : Rep L (C) y y') (h_x : Rep L (D) x x') :
    ET TFl.flt (_safe_atan2 y x) (Choclo.prism._safe_atan2 y' x') := by
  unfold _safe_atan2 Choclo.prism._safe_atan2
  (try dsimp only)
  repeat' (first
    | et_step)

theorem et_safe_log (ok : IntOK A L) (h3 : 3 * D ^ 2 ≤ L) (hD : 2 * D ≤ L) (hL : 15 ≤ L)
    {x y z r : TFl A} {x' y' z' r' : Fl A}
    (h_x : Rep L (D) x x') (h_y : Rep L (D) y y') (h_z : Rep L (D) z z') (h_r : r = TFl.flt r') :
    ET TFl.flt (_safe_log x y z r) (Choclo.prism._safe_log x' y' z' r') := by
  unfold _safe_log Choclo.prism._safe_log
  (try dsimp only)
  repeat' (first
    | et_step)

theorem et_kernel_pot (ok : IntOK A L) (h3 : 3 * D ^ 2 ≤ L) (hD : 2 * D ≤ L) (hL : 15 ≤ L)
    {x y z r : TFl A} {x' y' z' r' : Fl A}
    (h_x : Rep L (D) x x') (h_y : Rep L (D) y y') (h_z : Rep L (D) z z') (h_r : r = TFl.flt r') :
    ET TFl.flt (kernel_pot x y z r) (Choclo.prism.kernel_pot x' y' z' r') := by
  unfold kernel_pot Choclo.prism.kernel_pot
  (try dsimp only)
  repeat' (first
    | (refine et_safe_atan2 (C := ?C) (D := ?D) ok hL ?h1 ?h2; (case h1 => rep); (case h2 => rep))
    | (exact et_safe_log (D := D) ok h3 hD hL (by assumption) (by assumption) (by assumption) (by assumption))
    | et_step)

theorem et_kernel_e (ok : IntOK A L) (h3 : 3 * D ^ 2 ≤ L) (hD : 2 * D ≤ L) (hL : 15 ≤ L)
    {x y z r : TFl A} {x' y' z' r' : Fl A}
    (h_x : Rep L (D) x x') (h_y : Rep L (D) y y') (h_z : Rep L (D) z z') (h_r : r = TFl.flt r') :
    ET TFl.flt (kernel_e x y z r) (Choclo.prism.kernel_e x' y' z' r') := by
  unfold kernel_e Choclo.prism.kernel_e
  (try dsimp only)
  repeat' (first
    | (refine et_safe_atan2 (C := ?C) (D := ?D) ok hL ?h1 ?h2; (case h1 => rep); (case h2 => rep))
    | (exact et_safe_log (D := D) ok h3 hD hL (by assumption) (by assumption) (by assumption) (by assumption))
    | et_step)

theorem et_kernel_n (ok : IntOK A L) (h3 : 3 * D ^ 2 ≤ L) (hD : 2 * D ≤ L) (hL : 15 ≤ L)
    {x y z r : TFl A} {x' y' z' r' : Fl A}
    (h_x : Rep L (D) x x') (h_y : Rep L (D) y y') (h_z : Rep L (D) z z') (h_r : r = TFl.flt r') :
    ET TFl.flt (kernel_n x y z r) (Choclo.prism.kernel_n x' y' z' r') := by
  unfold kernel_n Choclo.prism.kernel_n
  (try dsimp only)
  repeat' (first
    | (refine et_safe_atan2 (C := ?C) (D := ?D) ok hL ?h1 ?h2; (case h1 => rep); (case h2 => rep))
    | (exact et_safe_log (D := D) ok h3 hD hL (by assumption) (by assumption) (by assumption) (by assumption))
    | et_step)

theorem et_kernel_u (ok : IntOK A L) (h3 : 3 * D ^ 2 ≤ L) (hD : 2 * D ≤ L) (hL : 15 ≤ L)
    {x y z r : TFl A} {x' y' z' r' : Fl A}
    (h_x : Rep L (D) x x') (h_y : Rep L (D) y y') (h_z : Rep L (D) z z') (h_r : r = TFl.flt r') :
    ET TFl.flt (kernel_u x y z r) (Choclo.prism.kernel_u x' y' z' r') := by
  unfold kernel_u Choclo.prism.kernel_u
  (try dsimp only)
  repeat' (first
    | (refine et_safe_atan2 (C := ?C) (D := ?D) ok hL ?h1 ?h2; (case h1 => rep); (case h2 => rep))
    | (exact et_safe_log (D := D) ok h3 hD hL (by assumption) (by assumption) (by assumption) (by assumption))
    | et_step)

theorem et_kernel_ee (ok : IntOK A L) (h3 : 3 * D ^ 2 ≤ L) (hD : 2 * D ≤ L) (hL : 15 ≤ L)
    {x y z r : TFl A} {x' y' z' r' : Fl A}
    (h_x : Rep L (D) x x') (h_y : Rep L (D) y y') (h_z : Rep L (D) z z') (h_r : r = TFl.flt r') :
    ET TFl.flt (kernel_ee x y z r) (Choclo.prism.kernel_ee x' y' z' r') := by
  unfold kernel_ee Choclo.prism.kernel_ee
  (try dsimp only)
  repeat' (first
    | (refine et_safe_atan2 (C := ?C) (D := ?D) ok hL ?h1 ?h2; (case h1 => rep); (case h2 => rep))
    | (exact et_safe_log (D := D) ok h3 hD hL (by assumption) (by assumption) (by assumption) (by assumption))
    | et_step)

theorem et_kernel_nn (ok : IntOK A L) (h3 : 3 * D ^ 2 ≤ L) (hD : 2 * D ≤ L) (hL : 15 ≤ L)
    {x y z r : TFl A} {x' y' z' r' : Fl A}
    (h_x : Rep L (D) x x') (h_y : Rep L (D) y y') (h_z : Rep L (D) z z') (h_r : r = TFl.flt r') :
    ET TFl.flt (kernel_nn x y z r) (Choclo.prism.kernel_nn x' y' z' r') := by
  unfold kernel_nn Choclo.prism.kernel_nn
  (try dsimp only)
  repeat' (first
    | (refine et_safe_atan2 (C := ?C) (D := ?D) ok hL ?h1 ?h2; (case h1 => rep); (case h2 => rep))
    | (exact et_safe_log (D := D) ok h3 hD hL (by assumption) (by assumption) (by assumption) (by assumption))
    | et_step)

theorem et_kernel_uu (ok : IntOK A L) (h3 : 3 * D ^ 2 ≤ L) (hD : 2 * D ≤ L) (hL : 15 ≤ L)
    {x y z r : TFl A} {x' y' z' r' : Fl A}
    (h_x : Rep L (D) x x') (h_y : Rep L (D) y y') (h_z : Rep L (D) z z') (h_r : r = TFl.flt r') :
    ET TFl.flt (kernel_uu x y z r) (Choclo.prism.kernel_uu x' y' z' r') := by
  unfold kernel_uu Choclo.prism.kernel_uu
  (try dsimp only)
  repeat' (first
    | (refine et_safe_atan2 (C := ?C) (D := ?D) ok hL ?h1 ?h2; (case h1 => rep); (case h2 => rep))
    | (exact et_safe_log (D := D) ok h3 hD hL (by assumption) (by assumption) (by assumption) (by assumption))
    | et_step)

theorem et_kernel_en (ok : IntOK A L) (h3 : 3 * D ^ 2 ≤ L) (hD : 2 * D ≤ L) (hL : 15 ≤ L)
    {x y z r : TFl A} {x' y' z' r' : Fl A}
    (h_x : Rep L (D) x x') (h_y : Rep L (D) y y') (h_z : Rep L (D) z z') (h_r : r = TFl.flt r') :
    ET TFl.flt (kernel_en x y z r) (Choclo.prism.kernel_en x' y' z' r') := by
  unfold kernel_en Choclo.prism.kernel_en
  (try dsimp only)
  repeat' (first
    | (refine et_safe_atan2 (C := ?C) (D := ?D) ok hL ?h1 ?h2; (case h1 => rep); (case h2 => rep))
    | (exact et_safe_log (D := D) ok h3 hD hL (by assumption) (by assumption) (by assumption) (by assumption))
    | et_step)

theorem et_kernel_eu (ok : IntOK A L) (h3 : 3 * D ^ 2 ≤ L) (hD : 2 * D ≤ L) (hL : 15 ≤ L)
    {x y z r : TFl A} {x' y' z' r' : Fl A}
    (h_x : Rep L (D) x x') (h_y : Rep L (D) y y') (h_z : Rep L (D) z z') (h_r : r = TFl.flt r') :
    ET TFl.flt (kernel_eu x y z r) (Choclo.prism.kernel_eu x' y' z' r') := by
  unfold kernel_eu Choclo.prism.kernel_eu
  (try dsimp only)
  repeat' (first
    | (refine et_safe_atan2 (C := ?C) (D := ?D) ok hL ?h1 ?h2; (case h1 => rep); (case h2 => rep))
    | (exact et_safe_log (D := D) ok h3 hD hL (by assumption) (by assumption) (by assumption) (by assumption))
    | et_step)

theorem et_kernel_nu (ok : IntOK A L) (h3 : 3 * D ^ 2 ≤ L) (hD : 2 * D ≤ L) (hL : 15 ≤ L)
    {x y z r : TFl A} {x' y' z' r' : Fl A}
    (h_x : Rep L (D) x x') (h_y : Rep L (D) y y') (h_z : Rep L (D) z z') (h_r : r = TFl.flt r') :
    ET TFl.flt (kernel_nu x y z r) (Choclo.prism.kernel_nu x' y' z' r') := by
  unfold kernel_nu Choclo.prism.kernel_nu
  (try dsimp only)
  repeat' (first
    | (refine et_safe_atan2 (C := ?C) (D := ?D) ok hL ?h1 ?h2; (case h1 => rep); (case h2 => rep))
    | (exact et_safe_log (D := D) ok h3 hD hL (by assumption) (by assumption) (by assumption) (by assumption))
    | et_step)

theorem et_kernel_iii (ok : IntOK A L) (h4 : 4 * D ^ 4 ≤ L) (h3 : 3 * D ^ 2 ≤ L) (hD : 2 * D ≤ L) (hL : 15 ≤ L) (h2 : 4 * D ^ 2 ≤ L)
    {x y z r : TFl A} {x' y' z' r' : Fl A}
    (h_x : Rep L (D) x x') (h_y : Rep L (D) y y') (h_z : Rep L (D) z z') (h_r : r = TFl.flt r') :
    ET TFl.flt (_kernel_iii x y z r) (Choclo.prism._kernel_iii x' y' z' r') := by
  unfold _kernel_iii Choclo.prism._kernel_iii
  (try dsimp only)
  repeat' (first
    | et_step)

theorem et_kernel_iij (ok : IntOK A L) (h3 : 3 * D ^ 2 ≤ L) (hD : 2 * D ≤ L) (hL : 15 ≤ L)
    {x y z r : TFl A} {x' y' z' r' : Fl A}
    (h_x : Rep L (D) x x') (h_y : Rep L (D) y y') (h_z : Rep L (D) z z') (h_r : r = TFl.flt r') :
    ET TFl.flt (_kernel_iij x y z r) (Choclo.prism._kernel_iij x' y' z' r') := by
  unfold _kernel_iij Choclo.prism._kernel_iij
  (try dsimp only)
  repeat' (first
    | et_step)

theorem et_kernel_eee (ok : IntOK A L) (h4 : 4 * D ^ 4 ≤ L) (h3 : 3 * D ^ 2 ≤ L) (hD : 2 * D ≤ L) (hL : 15 ≤ L) (h2 : 4 * D ^ 2 ≤ L)
    {x y z r : TFl A} {x' y' z' r' : Fl A}
    (h_x : Rep L (D) x x') (h_y : Rep L (D) y y') (h_z : Rep L (D) z z') (h_r : r = TFl.flt r') :
    ET TFl.flt (kernel_eee x y z r) (Choclo.prism.kernel_eee x' y' z' r') := by
  unfold kernel_eee Choclo.prism.kernel_eee
  (try dsimp only)
  repeat' (first
    | (exact et_kernel_iii (D := D) ok h4 h3 hD hL h2 (by assumption) (by assumption) (by assumption) (by assumption))
    | et_step)

theorem et_kernel_nnn (ok : IntOK A L) (h4 : 4 * D ^ 4 ≤ L) (h3 : 3 * D ^ 2 ≤ L) (hD : 2 * D ≤ L) (hL : 15 ≤ L) (h2 : 4 * D ^ 2 ≤ L)
    {x y z r : TFl A} {x' y' z' r' : Fl A}
    (h_x : Rep L (D) x x') (h_y : Rep L (D) y y') (h_z : Rep L (D) z z') (h_r : r = TFl.flt r') :
    ET TFl.flt (kernel_nnn x y z r) (Choclo.prism.kernel_nnn x' y' z' r') := by
  unfold kernel_nnn Choclo.prism.kernel_nnn
  (try dsimp only)
  repeat' (first
    | (exact et_kernel_iii (D := D) ok h4 h3 hD hL h2 (by assumption) (by assumption) (by assumption) (by assumption))
    | et_step)

theorem et_kernel_uuu (ok : IntOK A L) (h4 : 4 * D ^ 4 ≤ L) (h3 : 3 * D ^ 2 ≤ L) (hD : 2 * D ≤ L) (hL : 15 ≤ L) (h2 : 4 * D ^ 2 ≤ L)
    {x y z r : TFl A} {x' y' z' r' : Fl A}
    (h_x : Rep L (D) x x') (h_y : Rep L (D) y y') (h_z : Rep L (D) z z') (h_r : r = TFl.flt r') :
    ET TFl.flt (kernel_uuu x y z r) (Choclo.prism.kernel_uuu x' y' z' r') := by
  unfold kernel_uuu Choclo.prism.kernel_uuu
  (try dsimp only)
  repeat' (first
    | (exact et_kernel_iii (D := D) ok h4 h3 hD hL h2 (by assumption) (by assumption) (by assumption) (by assumption))
    | et_step)

theorem et_kernel_een (ok : IntOK A L) (h4 : 4 * D ^ 4 ≤ L) (h3 : 3 * D ^ 2 ≤ L) (hD : 2 * D ≤ L) (hL : 15 ≤ L) (h2 : 4 * D ^ 2 ≤ L)
    {x y z r : TFl A} {x' y' z' r' : Fl A}
    (h_x : Rep L (D) x x') (h_y : Rep L (D) y y') (h_z : Rep L (D) z z') (h_r : r = TFl.flt r') :
    ET TFl.flt (kernel_een x y z r) (Choclo.prism.kernel_een x' y' z' r') := by
  unfold kernel_een Choclo.prism.kernel_een
  (try dsimp only)
  repeat' (first
    | (exact et_kernel_iij (D := D) ok h3 hD hL (by assumption) (by assumption) (by assumption) (by assumption))
    | et_step)

theorem et_kernel_eeu (ok : IntOK A L) (h4 : 4 * D ^ 4 ≤ L) (h3 : 3 * D ^ 2 ≤ L) (hD : 2 * D ≤ L) (hL : 15 ≤ L) (h2 : 4 * D ^ 2 ≤ L)
    {x y z r : TFl A} {x' y' z' r' : Fl A}
    (h_x : Rep L (D) x x') (h_y : Rep L (D) y y') (h_z : Rep L (D) z z') (h_r : r = TFl.flt r') :
    ET TFl.flt (kernel_eeu x y z r) (Choclo.prism.kernel_eeu x' y' z' r') := by
  unfold kernel_eeu Choclo.prism.kernel_eeu
  (try dsimp only)
  repeat' (first
    | (exact et_kernel_iij (D := D) ok h3 hD hL (by assumption) (by assumption) (by assumption) (by assumption))
    | et_step)

theorem et_kernel_enn (ok : IntOK A L) (h4 : 4 * D ^ 4 ≤ L) (h3 : 3 * D ^ 2 ≤ L) (hD : 2 * D ≤ L) (hL : 15 ≤ L) (h2 : 4 * D ^ 2 ≤ L)
    {x y z r : TFl A} {x' y' z' r' : Fl A}
    (h_x : Rep L (D) x x') (h_y : Rep L (D) y y') (h_z : Rep L (D) z z') (h_r : r = TFl.flt r') :
    ET TFl.flt (kernel_enn x y z r) (Choclo.prism.kernel_enn x' y' z' r') := by
  unfold kernel_enn Choclo.prism.kernel_enn
  (try dsimp only)
  repeat' (first
    | (exact et_kernel_iij (D := D) ok h3 hD hL (by assumption) (by assumption) (by assumption) (by assumption))
    | et_step)

theorem et_kernel_nnu (ok : IntOK A L) (h4 : 4 * D ^ 4 ≤ L) (h3 : 3 * D ^ 2 ≤ L) (hD : 2 * D ≤ L) (hL : 15 ≤ L) (h2 : 4 * D ^ 2 ≤ L)
    {x y z r : TFl A} {x' y' z' r' : Fl A}
    (h_x : Rep L (D) x x') (h_y : Rep L (D) y y') (h_z : Rep L (D) z z') (h_r : r = TFl.flt r') :
    ET TFl.flt (kernel_nnu x y z r) (Choclo.prism.kernel_nnu x' y' z' r') := by
  unfold kernel_nnu Choclo.prism.kernel_nnu
  (try dsimp only)
  repeat' (first
    | (exact et_kernel_iij (D := D) ok h3 hD hL (by assumption) (by assumption) (by assumption) (by assumption))
    | et_step)

theorem et_kernel_euu (ok : IntOK A L) (h4 : 4 * D ^ 4 ≤ L) (h3 : 3 * D ^ 2 ≤ L) (hD : 2 * D ≤ L) (hL : 15 ≤ L) (h2 : 4 * D ^ 2 ≤ L)
    {x y z r : TFl A} {x' y' z' r' : Fl A}
    (h_x : Rep L (D) x x') (h_y : Rep L (D) y y') (h_z : Rep L (D) z z') (h_r : r = TFl.flt r') :
    ET TFl.flt (kernel_euu x y z r) (Choclo.prism.kernel_euu x' y' z' r') := by
  unfold kernel_euu Choclo.prism.kernel_euu
  (try dsimp only)
  repeat' (first
    | (exact et_kernel_iij (D := D) ok h3 hD hL (by assumption) (by assumption) (by assumption) (by assumption))
    | et_step)

theorem et_kernel_nuu (ok : IntOK A L) (h4 : 4 * D ^ 4 ≤ L) (h3 : 3 * D ^ 2 ≤ L) (hD : 2 * D ≤ L) (hL : 15 ≤ L) (h2 : 4 * D ^ 2 ≤ L)
    {x y z r : TFl A} {x' y' z' r' : Fl A}
    (h_x : Rep L (D) x x') (h_y : Rep L (D) y y') (h_z : Rep L (D) z z') (h_r : r = TFl.flt r') :
    ET TFl.flt (kernel_nuu x y z r) (Choclo.prism.kernel_nuu x' y' z' r') := by
  unfold kernel_nuu Choclo.prism.kernel_nuu
  (try dsimp only)
  repeat' (first
    | (exact et_kernel_iij (D := D) ok h3 hD hL (by assumption) (by assumption) (by assumption) (by assumption))
    | et_step)

theorem et_kernel_enu (ok : IntOK A L) (h4 : 4 * D ^ 4 ≤ L) (h3 : 3 * D ^ 2 ≤ L) (hD : 2 * D ≤ L) (hL : 15 ≤ L) (h2 : 4 * D ^ 2 ≤ L)
    {x y z r : TFl A} {x' y' z' r' : Fl A}
    (h_x : Rep L (D) x x') (h_y : Rep L (D) y y') (h_z : Rep L (D) z z') (h_r : r = TFl.flt r') :
    ET TFl.flt (kernel_enu x y z r) (Choclo.prism.kernel_enu x' y' z' r') := by
  unfold kernel_enu Choclo.prism.kernel_enu
  (try dsimp only)
  repeat' (first
    | et_step)

/-- A kernel of shifted coordinates that are integers up to `D` (or floats) and the kernel of floats. -/
abbrev ETK (L D : ℕ) (K : Kernel A) (K' : Choclo.prism.Kernel A) : Prop :=
  ∀ {x y z r : TFl A} {x' y' z' r' : Fl A}, Rep L D x x' → Rep L D y y' → Rep L D z z' → r = .flt r' →
    ET TFl.flt (K x y z r) (K' x' y' z' r')

theorem et_evaluate_kernel (ok : IntOK A L) (h3 : 3 * D ^ 2 ≤ L) (hD : 2 * D ≤ L) (hDC : C + C = D) (hL : 15 ≤ L)
    {e n u w E s N b t : TFl A} {e' n' u' w' E' s' N' b' t' : Fl A}
    (h_e : Rep L (C) e e') (h_n : Rep L (C) n n') (h_u : Rep L (C) u u') (h_w : Rep L (C) w w') (h_E : Rep L (C) E E') (h_s : Rep L (C) s s') (h_N : Rep L (C) N N') (h_b : Rep L (C) b b') (h_t : Rep L (C) t t') {K : Kernel A} {K' : Choclo.prism.Kernel A} (hK : ETK L D K K') :
    ET TFl.flt (_evaluate_kernel e n u w E s N b t K) (Choclo.prism._evaluate_kernel e' n' u' w' E' s' N' b' t' K') := by
  unfold _evaluate_kernel Choclo.prism._evaluate_kernel
  (try dsimp only)
  repeat' (first
    | (refine hK ?k1 ?k2 ?k3 ?k4; (case k1 => subst hDC; rep); (case k2 => subst hDC; rep); (case k3 => subst hDC; rep); (case k4 => subst hDC; rf))
    | et_step)

theorem et_gravity_pot (ok : IntOK A L) (h3 : 3 * D ^ 2 ≤ L) (hD : 2 * D ≤ L) (hDC : C + C = D) (hL : 15 ≤ L)
    {e n u w E s N b t d : TFl A} {e' n' u' w' E' s' N' b' t' d' : Fl A}
    (h_e : Rep L (C) e e') (h_n : Rep L (C) n n') (h_u : Rep L (C) u u') (h_w : Rep L (C) w w') (h_E : Rep L (C) E E') (h_s : Rep L (C) s s') (h_N : Rep L (C) N N') (h_b : Rep L (C) b b') (h_t : Rep L (C) t t') (h_d : Rep L (L) d d') :
    ET TFl.flt (gravity_pot e n u w E s N b t d) (Choclo.prism.gravity_pot e' n' u' w' E' s' N' b' t' d') := by
  unfold gravity_pot Choclo.prism.gravity_pot
  (try dsimp only)
  have p_is_interior_point := is_interior_point_typed ok h_e h_n h_u h_w h_E h_s h_N h_b h_t
  have p_is_point_on_easting_edge := is_point_on_easting_edge_typed ok h_e h_n h_u h_w h_E h_s h_N h_b h_t
  have p_is_point_on_northing_edge := is_point_on_northing_edge_typed ok h_e h_n h_u h_w h_E h_s h_N h_b h_t
  have p_is_point_on_upward_edge := is_point_on_upward_edge_typed ok h_e h_n h_u h_w h_E h_s h_N h_b h_t
  have p_is_point_on_edge := is_point_on_edge_typed ok h_e h_n h_u h_w h_E h_s h_N h_b h_t
  have p_is_point_on_east_face := is_point_on_east_face_typed ok h_e h_n h_u h_w h_E h_s h_N h_b h_t
  have p_is_point_on_north_face := is_point_on_north_face_typed ok h_e h_n h_u h_w h_E h_s h_N h_b h_t
  have p_is_point_on_top_face := is_point_on_top_face_typed ok h_e h_n h_u h_w h_E h_s h_N h_b h_t
  repeat' (first
    | (exact et_evaluate_kernel ok h3 hD hDC hL h_e h_n h_u h_w h_E h_s h_N h_b h_t (fun a b c d => et_kernel_pot ok h3 hD hL a b c d))
    | et_step)

theorem et_gravity_e (ok : IntOK A L) (h3 : 3 * D ^ 2 ≤ L) (hD : 2 * D ≤ L) (hDC : C + C = D) (hL : 15 ≤ L)
    {e n u w E s N b t d : TFl A} {e' n' u' w' E' s' N' b' t' d' : Fl A}
    (h_e : Rep L (C) e e') (h_n : Rep L (C) n n') (h_u : Rep L (C) u u') (h_w : Rep L (C) w w') (h_E : Rep L (C) E E') (h_s : Rep L (C) s s') (h_N : Rep L (C) N N') (h_b : Rep L (C) b b') (h_t : Rep L (C) t t') (h_d : Rep L (L) d d') :
    ET TFl.flt (gravity_e e n u w E s N b t d) (Choclo.prism.gravity_e e' n' u' w' E' s' N' b' t' d') := by
  unfold gravity_e Choclo.prism.gravity_e
  (try dsimp only)
  have p_is_interior_point := is_interior_point_typed ok h_e h_n h_u h_w h_E h_s h_N h_b h_t
  have p_is_point_on_easting_edge := is_point_on_easting_edge_typed ok h_e h_n h_u h_w h_E h_s h_N h_b h_t
  have p_is_point_on_northing_edge := is_point_on_northing_edge_typed ok h_e h_n h_u h_w h_E h_s h_N h_b h_t
  have p_is_point_on_upward_edge := is_point_on_upward_edge_typed ok h_e h_n h_u h_w h_E h_s h_N h_b h_t
  have p_is_point_on_edge := is_point_on_edge_typed ok h_e h_n h_u h_w h_E h_s h_N h_b h_t
  have p_is_point_on_east_face := is_point_on_east_face_typed ok h_e h_n h_u h_w h_E h_s h_N h_b h_t
  have p_is_point_on_north_face := is_point_on_north_face_typed ok h_e h_n h_u h_w h_E h_s h_N h_b h_t
  have p_is_point_on_top_face := is_point_on_top_face_typed ok h_e h_n h_u h_w h_E h_s h_N h_b h_t
  repeat' (first
    | (exact et_evaluate_kernel ok h3 hD hDC hL h_e h_n h_u h_w h_E h_s h_N h_b h_t (fun a b c d => et_kernel_e ok h3 hD hL a b c d))
    | et_step)

theorem et_gravity_n (ok : IntOK A L) (h3 : 3 * D ^ 2 ≤ L) (hD : 2 * D ≤ L) (hDC : C + C = D) (hL : 15 ≤ L)
    {e n u w E s N b t d : TFl A} {e' n' u' w' E' s' N' b' t' d' : Fl A}
    (h_e : Rep L (C) e e') (h_n : Rep L (C) n n') (h_u : Rep L (C) u u') (h_w : Rep L (C) w w') (h_E : Rep L (C) E E') (h_s : Rep L (C) s s') (h_N : Rep L (C) N N') (h_b : Rep L (C) b b') (h_t : Rep L (C) t t') (h_d : Rep L (L) d d') :
    ET TFl.flt (gravity_n e n u w E s N b t d) (Choclo.prism.gravity_n e' n' u' w' E' s' N' b' t' d') := by
  unfold gravity_n Choclo.prism.gravity_n
  (try dsimp only)
  have p_is_interior_point := is_interior_point_typed ok h_e h_n h_u h_w h_E h_s h_N h_b h_t
  have p_is_point_on_easting_edge := is_point_on_easting_edge_typed ok h_e h_n h_u h_w h_E h_s h_N h_b h_t
  have p_is_point_on_northing_edge := is_point_on_northing_edge_typed ok h_e h_n h_u h_w h_E h_s h_N h_b h_t
  have p_is_point_on_upward_edge := is_point_on_upward_edge_typed ok h_e h_n h_u h_w h_E h_s h_N h_b h_t
  have p_is_point_on_edge := is_point_on_edge_typed ok h_e h_n h_u h_w h_E h_s h_N h_b h_t
  have p_is_point_on_east_face := is_point_on_east_face_typed ok h_e h_n h_u h_w h_E h_s h_N h_b h_t
  have p_is_point_on_north_face := is_point_on_north_face_typed ok h_e h_n h_u h_w h_E h_s h_N h_b h_t
  have p_is_point_on_top_face := is_point_on_top_face_typed ok h_e h_n h_u h_w h_E h_s h_N h_b h_t
  repeat' (first
    | (exact et_evaluate_kernel ok h3 hD hDC hL h_e h_n h_u h_w h_E h_s h_N h_b h_t (fun a b c d => et_kernel_n ok h3 hD hL a b c d))
    | et_step)

theorem et_gravity_u (ok : IntOK A L) (h3 : 3 * D ^ 2 ≤ L) (hD : 2 * D ≤ L) (hDC : C + C = D) (hL : 15 ≤ L)
    {e n u w E s N b t d : TFl A} {e' n' u' w' E' s' N' b' t' d' : Fl A}
    (h_e : Rep L (C) e e') (h_n : Rep L (C) n n') (h_u : Rep L (C) u u') (h_w : Rep L (C) w w') (h_E : Rep L (C) E E') (h_s : Rep L (C) s s') (h_N : Rep L (C) N N') (h_b : Rep L (C) b b') (h_t : Rep L (C) t t') (h_d : Rep L (L) d d') :
    ET TFl.flt (gravity_u e n u w E s N b t d) (Choclo.prism.gravity_u e' n' u' w' E' s' N' b' t' d') := by
  unfold gravity_u Choclo.prism.gravity_u
  (try dsimp only)
  have p_is_interior_point := is_interior_point_typed ok h_e h_n h_u h_w h_E h_s h_N h_b h_t
  have p_is_point_on_easting_edge := is_point_on_easting_edge_typed ok h_e h_n h_u h_w h_E h_s h_N h_b h_t
  have p_is_point_on_northing_edge := is_point_on_northing_edge_typed ok h_e h_n h_u h_w h_E h_s h_N h_b h_t
  have p_is_point_on_upward_edge := is_point_on_upward_edge_typed ok h_e h_n h_u h_w h_E h_s h_N h_b h_t
  have p_is_point_on_edge := is_point_on_edge_typed ok h_e h_n h_u h_w h_E h_s h_N h_b h_t
  have p_is_point_on_east_face := is_point_on_east_face_typed ok h_e h_n h_u h_w h_E h_s h_N h_b h_t
  have p_is_point_on_north_face := is_point_on_north_face_typed ok h_e h_n h_u h_w h_E h_s h_N h_b h_t
  have p_is_point_on_top_face := is_point_on_top_face_typed ok h_e h_n h_u h_w h_E h_s h_N h_b h_t
  repeat' (first
    | (exact et_evaluate_kernel ok h3 hD hDC hL h_e h_n h_u h_w h_E h_s h_N h_b h_t (fun a b c d => et_kernel_u ok h3 hD hL a b c d))
    | et_step)

theorem et_gravity_ee (ok : IntOK A L) (h3 : 3 * D ^ 2 ≤ L) (hD : 2 * D ≤ L) (hDC : C + C = D) (hL : 15 ≤ L)
    {e n u w E s N b t d : TFl A} {e' n' u' w' E' s' N' b' t' d' : Fl A}
    (h_e : Rep L (C) e e') (h_n : Rep L (C) n n') (h_u : Rep L (C) u u') (h_w : Rep L (C) w w') (h_E : Rep L (C) E E') (h_s : Rep L (C) s s') (h_N : Rep L (C) N N') (h_b : Rep L (C) b b') (h_t : Rep L (C) t t') (h_d : Rep L (L) d d') :
    ET TFl.flt (gravity_ee e n u w E s N b t d) (Choclo.prism.gravity_ee e' n' u' w' E' s' N' b' t' d') := by
  unfold gravity_ee Choclo.prism.gravity_ee
  (try dsimp only)
  have p_is_interior_point := is_interior_point_typed ok h_e h_n h_u h_w h_E h_s h_N h_b h_t
  have p_is_point_on_easting_edge := is_point_on_easting_edge_typed ok h_e h_n h_u h_w h_E h_s h_N h_b h_t
  have p_is_point_on_northing_edge := is_point_on_northing_edge_typed ok h_e h_n h_u h_w h_E h_s h_N h_b h_t
  have p_is_point_on_upward_edge := is_point_on_upward_edge_typed ok h_e h_n h_u h_w h_E h_s h_N h_b h_t
  have p_is_point_on_edge := is_point_on_edge_typed ok h_e h_n h_u h_w h_E h_s h_N h_b h_t
  have p_is_point_on_east_face := is_point_on_east_face_typed ok h_e h_n h_u h_w h_E h_s h_N h_b h_t
  have p_is_point_on_north_face := is_point_on_north_face_typed ok h_e h_n h_u h_w h_E h_s h_N h_b h_t
  have p_is_point_on_top_face := is_point_on_top_face_typed ok h_e h_n h_u h_w h_E h_s h_N h_b h_t
  repeat' (first
    | (exact et_evaluate_kernel ok h3 hD hDC hL h_e h_n h_u h_w h_E h_s h_N h_b h_t (fun a b c d => et_kernel_ee ok h3 hD hL a b c d))
    | et_step)

theorem et_gravity_nn (ok : IntOK A L) (h3 : 3 * D ^ 2 ≤ L) (hD : 2 * D ≤ L) (hDC : C + C = D) (hL : 15 ≤ L)
    {e n u w E s N b t d : TFl A} {e' n' u' w' E' s' N' b' t' d' : Fl A}
    (h_e : Rep L (C) e e') (h_n : Rep L (C) n n') (h_u : Rep L (C) u u') (h_w : Rep L (C) w w') (h_E : Rep L (C) E E') (h_s : Rep L (C) s s') (h_N : Rep L (C) N N') (h_b : Rep L (C) b b') (h_t : Rep L (C) t t') (h_d : Rep L (L) d d') :
    ET TFl.flt (gravity_nn e n u w E s N b t d) (Choclo.prism.gravity_nn e' n' u' w' E' s' N' b' t' d') := by
  unfold gravity_nn Choclo.prism.gravity_nn
  (try dsimp only)
  have p_is_interior_point := is_interior_point_typed ok h_e h_n h_u h_w h_E h_s h_N h_b h_t
  have p_is_point_on_easting_edge := is_point_on_easting_edge_typed ok h_e h_n h_u h_w h_E h_s h_N h_b h_t
  have p_is_point_on_northing_edge := is_point_on_northing_edge_typed ok h_e h_n h_u h_w h_E h_s h_N h_b h_t
  have p_is_point_on_upward_edge := is_point_on_upward_edge_typed ok h_e h_n h_u h_w h_E h_s h_N h_b h_t
  have p_is_point_on_edge := is_point_on_edge_typed ok h_e h_n h_u h_w h_E h_s h_N h_b h_t
  have p_is_point_on_east_face := is_point_on_east_face_typed ok h_e h_n h_u h_w h_E h_s h_N h_b h_t
  have p_is_point_on_north_face := is_point_on_north_face_typed ok h_e h_n h_u h_w h_E h_s h_N h_b h_t
  have p_is_point_on_top_face := is_point_on_top_face_typed ok h_e h_n h_u h_w h_E h_s h_N h_b h_t
  repeat' (first
    | (exact et_evaluate_kernel ok h3 hD hDC hL h_e h_n h_u h_w h_E h_s h_N h_b h_t (fun a b c d => et_kernel_nn ok h3 hD hL a b c d))
    | et_step)

theorem et_gravity_uu (ok : IntOK A L) (h3 : 3 * D ^ 2 ≤ L) (hD : 2 * D ≤ L) (hDC : C + C = D) (hL : 15 ≤ L)
    {e n u w E s N b t d : TFl A} {e' n' u' w' E' s' N' b' t' d' : Fl A}
    (h_e : Rep L (C) e e') (h_n : Rep L (C) n n') (h_u : Rep L (C) u u') (h_w : Rep L (C) w w') (h_E : Rep L (C) E E') (h_s : Rep L (C) s s') (h_N : Rep L (C) N N') (h_b : Rep L (C) b b') (h_t : Rep L (C) t t') (h_d : Rep L (L) d d') :
    ET TFl.flt (gravity_uu e n u w E s N b t d) (Choclo.prism.gravity_uu e' n' u' w' E' s' N' b' t' d') := by
  unfold gravity_uu Choclo.prism.gravity_uu
  (try dsimp only)
  have p_is_interior_point := is_interior_point_typed ok h_e h_n h_u h_w h_E h_s h_N h_b h_t
  have p_is_point_on_easting_edge := is_point_on_easting_edge_typed ok h_e h_n h_u h_w h_E h_s h_N h_b h_t
  have p_is_point_on_northing_edge := is_point_on_northing_edge_typed ok h_e h_n h_u h_w h_E h_s h_N h_b h_t
  have p_is_point_on_upward_edge := is_point_on_upward_edge_typed ok h_e h_n h_u h_w h_E h_s h_N h_b h_t
  have p_is_point_on_edge := is_point_on_edge_typed ok h_e h_n h_u h_w h_E h_s h_N h_b h_t
  have p_is_point_on_east_face := is_point_on_east_face_typed ok h_e h_n h_u h_w h_E h_s h_N h_b h_t
  have p_is_point_on_north_face := is_point_on_north_face_typed ok h_e h_n h_u h_w h_E h_s h_N h_b h_t
  have p_is_point_on_top_face := is_point_on_top_face_typed ok h_e h_n h_u h_w h_E h_s h_N h_b h_t
  repeat' (first
    | (exact et_evaluate_kernel ok h3 hD hDC hL h_e h_n h_u h_w h_E h_s h_N h_b h_t (fun a b c d => et_kernel_uu ok h3 hD hL a b c d))
    | et_step)

theorem et_gravity_en (ok : IntOK A L) (h3 : 3 * D ^ 2 ≤ L) (hD : 2 * D ≤ L) (hDC : C + C = D) (hL : 15 ≤ L)
    {e n u w E s N b t d : TFl A} {e' n' u' w' E' s' N' b' t' d' : Fl A}
    (h_e : Rep L (C) e e') (h_n : Rep L (C) n n') (h_u : Rep L (C) u u') (h_w : Rep L (C) w w') (h_E : Rep L (C) E E') (h_s : Rep L (C) s s') (h_N : Rep L (C) N N') (h_b : Rep L (C) b b') (h_t : Rep L (C) t t') (h_d : Rep L (L) d d') :
    ET TFl.flt (gravity_en e n u w E s N b t d) (Choclo.prism.gravity_en e' n' u' w' E' s' N' b' t' d') := by
  unfold gravity_en Choclo.prism.gravity_en
  (try dsimp only)
  have p_is_interior_point := is_interior_point_typed ok h_e h_n h_u h_w h_E h_s h_N h_b h_t
  have p_is_point_on_easting_edge := is_point_on_easting_edge_typed ok h_e h_n h_u h_w h_E h_s h_N h_b h_t
  have p_is_point_on_northing_edge := is_point_on_northing_edge_typed ok h_e h_n h_u h_w h_E h_s h_N h_b h_t
  have p_is_point_on_upward_edge := is_point_on_upward_edge_typed ok h_e h_n h_u h_w h_E h_s h_N h_b h_t
  have p_is_point_on_edge := is_point_on_edge_typed ok h_e h_n h_u h_w h_E h_s h_N h_b h_t
  have p_is_point_on_east_face := is_point_on_east_face_typed ok h_e h_n h_u h_w h_E h_s h_N h_b h_t
  have p_is_point_on_north_face := is_point_on_north_face_typed ok h_e h_n h_u h_w h_E h_s h_N h_b h_t
  have p_is_point_on_top_face := is_point_on_top_face_typed ok h_e h_n h_u h_w h_E h_s h_N h_b h_t
  repeat' (first
    | (exact et_evaluate_kernel ok h3 hD hDC hL h_e h_n h_u h_w h_E h_s h_N h_b h_t (fun a b c d => et_kernel_en ok h3 hD hL a b c d))
    | et_step)

theorem et_gravity_eu (ok : IntOK A L) (h3 : 3 * D ^ 2 ≤ L) (hD : 2 * D ≤ L) (hDC : C + C = D) (hL : 15 ≤ L)
    {e n u w E s N b t d : TFl A} {e' n' u' w' E' s' N' b' t' d' : Fl A}
    (h_e : Rep L (C) e e') (h_n : Rep L (C) n n') (h_u : Rep L (C) u u') (h_w : Rep L (C) w w') (h_E : Rep L (C) E E') (h_s : Rep L (C) s s') (h_N : Rep L (C) N N') (h_b : Rep L (C) b b') (h_t : Rep L (C) t t') (h_d : Rep L (L) d d') :
    ET TFl.flt (gravity_eu e n u w E s N b t d) (Choclo.prism.gravity_eu e' n' u' w' E' s' N' b' t' d') := by
  unfold gravity_eu Choclo.prism.gravity_eu
  (try dsimp only)
  have p_is_interior_point := is_interior_point_typed ok h_e h_n h_u h_w h_E h_s h_N h_b h_t
  have p_is_point_on_easting_edge := is_point_on_easting_edge_typed ok h_e h_n h_u h_w h_E h_s h_N h_b h_t
  have p_is_point_on_northing_edge := is_point_on_northing_edge_typed ok h_e h_n h_u h_w h_E h_s h_N h_b h_t
  have p_is_point_on_upward_edge := is_point_on_upward_edge_typed ok h_e h_n h_u h_w h_E h_s h_N h_b h_t
  have p_is_point_on_edge := is_point_on_edge_typed ok h_e h_n h_u h_w h_E h_s h_N h_b h_t
  have p_is_point_on_east_face := is_point_on_east_face_typed ok h_e h_n h_u h_w h_E h_s h_N h_b h_t
  have p_is_point_on_north_face := is_point_on_north_face_typed ok h_e h_n h_u h_w h_E h_s h_N h_b h_t
  have p_is_point_on_top_face := is_point_on_top_face_typed ok h_e h_n h_u h_w h_E h_s h_N h_b h_t
  repeat' (first
    | (exact et_evaluate_kernel ok h3 hD hDC hL h_e h_n h_u h_w h_E h_s h_N h_b h_t (fun a b c d => et_kernel_eu ok h3 hD hL a b c d))
    | et_step)

theorem et_gravity_nu (ok : IntOK A L) (h3 : 3 * D ^ 2 ≤ L) (hD : 2 * D ≤ L) (hDC : C + C = D) (hL : 15 ≤ L)
    {e n u w E s N b t d : TFl A} {e' n' u' w' E' s' N' b' t' d' : Fl A}
    (h_e : Rep L (C) e e') (h_n : Rep L (C) n n') (h_u : Rep L (C) u u') (h_w : Rep L (C) w w') (h_E : Rep L (C) E E') (h_s : Rep L (C) s s') (h_N : Rep L (C) N N') (h_b : Rep L (C) b b') (h_t : Rep L (C) t t') (h_d : Rep L (L) d d') :
    ET TFl.flt (gravity_nu e n u w E s N b t d) (Choclo.prism.gravity_nu e' n' u' w' E' s' N' b' t' d') := by
  unfold gravity_nu Choclo.prism.gravity_nu
  (try dsimp only)
  have p_is_interior_point := is_interior_point_typed ok h_e h_n h_u h_w h_E h_s h_N h_b h_t
  have p_is_point_on_easting_edge := is_point_on_easting_edge_typed ok h_e h_n h_u h_w h_E h_s h_N h_b h_t
  have p_is_point_on_northing_edge := is_point_on_northing_edge_typed ok h_e h_n h_u h_w h_E h_s h_N h_b h_t
  have p_is_point_on_upward_edge := is_point_on_upward_edge_typed ok h_e h_n h_u h_w h_E h_s h_N h_b h_t
  have p_is_point_on_edge := is_point_on_edge_typed ok h_e h_n h_u h_w h_E h_s h_N h_b h_t
  have p_is_point_on_east_face := is_point_on_east_face_typed ok h_e h_n h_u h_w h_E h_s h_N h_b h_t
  have p_is_point_on_north_face := is_point_on_north_face_typed ok h_e h_n h_u h_w h_E h_s h_N h_b h_t
  have p_is_point_on_top_face := is_point_on_top_face_typed ok h_e h_n h_u h_w h_E h_s h_N h_b h_t
  repeat' (first
    | (exact et_evaluate_kernel ok h3 hD hDC hL h_e h_n h_u h_w h_E h_s h_N h_b h_t (fun a b c d => et_kernel_nu ok h3 hD hL a b c d))
    | et_step)

theorem et_calculate_component (ok : IntOK A L) (h3 : 3 * D ^ 2 ≤ L) (hD : 2 * D ≤ L) (hDC : C + C = D) (hL : 15 ≤ L)
    {e n u w E s N b t Me Mn Mu : TFl A} {e' n' u' w' E' s' N' b' t' Me' Mn' Mu' : Fl A}
    (h_e : Rep L (C) e e') (h_n : Rep L (C) n n') (h_u : Rep L (C) u u') (h_w : Rep L (C) w w') (h_E : Rep L (C) E E') (h_s : Rep L (C) s s') (h_N : Rep L (C) N N') (h_b : Rep L (C) b b') (h_t : Rep L (C) t t') (h_Me : Rep L (L) Me Me') (h_Mn : Rep L (L) Mn Mn') (h_Mu : Rep L (L) Mu Mu') {K1 K2 K3 : Kernel A} {K1' K2' K3' : Choclo.prism.Kernel A}
    (hK1 : ETK L D K1 K1') (hK2 : ETK L D K2 K2') (hK3 : ETK L D K3 K3') :
    ET TFl.flt (_calculate_component e n u w E s N b t Me Mn Mu K1 K2 K3) (Choclo.prism._calculate_component e' n' u' w' E' s' N' b' t' Me' Mn' Mu' K1' K2' K3') := by
  unfold _calculate_component Choclo.prism._calculate_component
  (try dsimp only)
  repeat' (first
    | (refine hK1 ?k1 ?k2 ?k3 ?k4; (case k1 => subst hDC; rep); (case k2 => subst hDC; rep); (case k3 => subst hDC; rep); (case k4 => subst hDC; rf))
    | (refine hK2 ?k1 ?k2 ?k3 ?k4; (case k1 => subst hDC; rep); (case k2 => subst hDC; rep); (case k3 => subst hDC; rep); (case k4 => subst hDC; rf))
    | (refine hK3 ?k1 ?k2 ?k3 ?k4; (case k1 => subst hDC; rep); (case k2 => subst hDC; rep); (case k3 => subst hDC; rep); (case k4 => subst hDC; rf))
    | et_step)

theorem et_magnetic_field (ok : IntOK A L) (h3 : 3 * D ^ 2 ≤ L) (hD : 2 * D ≤ L) (hDC : C + C = D) (hL : 15 ≤ L)
    {e n u w E s N b t Me Mn Mu : TFl A} {e' n' u' w' E' s' N' b' t' Me' Mn' Mu' : Fl A}
    (h_e : Rep L (C) e e') (h_n : Rep L (C) n n') (h_u : Rep L (C) u u') (h_w : Rep L (C) w w') (h_E : Rep L (C) E E') (h_s : Rep L (C) s s') (h_N : Rep L (C) N N') (h_b : Rep L (C) b b') (h_t : Rep L (C) t t') (h_Me : Rep L (L) Me Me') (h_Mn : Rep L (L) Mn Mn') (h_Mu : Rep L (L) Mu Mu') :
    ET TFl.flt3 (magnetic_field e n u w E s N b t Me Mn Mu) (Choclo.prism.magnetic_field e' n' u' w' E' s' N' b' t' Me' Mn' Mu') := by
  unfold magnetic_field Choclo.prism.magnetic_field
  (try dsimp only)
  have p_is_interior_point := is_interior_point_typed ok h_e h_n h_u h_w h_E h_s h_N h_b h_t
  have p_is_point_on_easting_edge := is_point_on_easting_edge_typed ok h_e h_n h_u h_w h_E h_s h_N h_b h_t
  have p_is_point_on_northing_edge := is_point_on_northing_edge_typed ok h_e h_n h_u h_w h_E h_s h_N h_b h_t
  have p_is_point_on_upward_edge := is_point_on_upward_edge_typed ok h_e h_n h_u h_w h_E h_s h_N h_b h_t
  have p_is_point_on_edge := is_point_on_edge_typed ok h_e h_n h_u h_w h_E h_s h_N h_b h_t
  have p_is_point_on_east_face := is_point_on_east_face_typed ok h_e h_n h_u h_w h_E h_s h_N h_b h_t
  have p_is_point_on_north_face := is_point_on_north_face_typed ok h_e h_n h_u h_w h_E h_s h_N h_b h_t
  have p_is_point_on_top_face := is_point_on_top_face_typed ok h_e h_n h_u h_w h_E h_s h_N h_b h_t
  repeat' (first
    | (refine et_kernel_ee ok h3 hD hL ?k1 ?k2 ?k3 ?k4; (case k1 => subst hDC; rep); (case k2 => subst hDC; rep); (case k3 => subst hDC; rep); (case k4 => subst hDC; rf))
    | (refine et_kernel_nn ok h3 hD hL ?k1 ?k2 ?k3 ?k4; (case k1 => subst hDC; rep); (case k2 => subst hDC; rep); (case k3 => subst hDC; rep); (case k4 => subst hDC; rf))
    | (refine et_kernel_uu ok h3 hD hL ?k1 ?k2 ?k3 ?k4; (case k1 => subst hDC; rep); (case k2 => subst hDC; rep); (case k3 => subst hDC; rep); (case k4 => subst hDC; rf))
    | (refine et_kernel_en ok h3 hD hL ?k1 ?k2 ?k3 ?k4; (case k1 => subst hDC; rep); (case k2 => subst hDC; rep); (case k3 => subst hDC; rep); (case k4 => subst hDC; rf))
    | (refine et_kernel_eu ok h3 hD hL ?k1 ?k2 ?k3 ?k4; (case k1 => subst hDC; rep); (case k2 => subst hDC; rep); (case k3 => subst hDC; rep); (case k4 => subst hDC; rf))
    | (refine et_kernel_nu ok h3 hD hL ?k1 ?k2 ?k3 ?k4; (case k1 => subst hDC; rep); (case k2 => subst hDC; rep); (case k3 => subst hDC; rep); (case k4 => subst hDC; rf))
    | et_step)

theorem et_magnetic_e (ok : IntOK A L) (h3 : 3 * D ^ 2 ≤ L) (hD : 2 * D ≤ L) (hDC : C + C = D) (hL : 15 ≤ L)
    {e n u w E s N b t Me Mn Mu : TFl A} {e' n' u' w' E' s' N' b' t' Me' Mn' Mu' : Fl A}
    (h_e : Rep L (C) e e') (h_n : Rep L (C) n n') (h_u : Rep L (C) u u') (h_w : Rep L (C) w w') (h_E : Rep L (C) E E') (h_s : Rep L (C) s s') (h_N : Rep L (C) N N') (h_b : Rep L (C) b b') (h_t : Rep L (C) t t') (h_Me : Rep L (L) Me Me') (h_Mn : Rep L (L) Mn Mn') (h_Mu : Rep L (L) Mu Mu') :
    ET TFl.flt (magnetic_e e n u w E s N b t Me Mn Mu) (Choclo.prism.magnetic_e e' n' u' w' E' s' N' b' t' Me' Mn' Mu') := by
  unfold magnetic_e Choclo.prism.magnetic_e
  (try dsimp only)
  have p_is_interior_point := is_interior_point_typed ok h_e h_n h_u h_w h_E h_s h_N h_b h_t
  have p_is_point_on_easting_edge := is_point_on_easting_edge_typed ok h_e h_n h_u h_w h_E h_s h_N h_b h_t
  have p_is_point_on_northing_edge := is_point_on_northing_edge_typed ok h_e h_n h_u h_w h_E h_s h_N h_b h_t
  have p_is_point_on_upward_edge := is_point_on_upward_edge_typed ok h_e h_n h_u h_w h_E h_s h_N h_b h_t
  have p_is_point_on_edge := is_point_on_edge_typed ok h_e h_n h_u h_w h_E h_s h_N h_b h_t
  have p_is_point_on_east_face := is_point_on_east_face_typed ok h_e h_n h_u h_w h_E h_s h_N h_b h_t
  have p_is_point_on_north_face := is_point_on_north_face_typed ok h_e h_n h_u h_w h_E h_s h_N h_b h_t
  have p_is_point_on_top_face := is_point_on_top_face_typed ok h_e h_n h_u h_w h_E h_s h_N h_b h_t
  repeat' (first
    | (exact et_calculate_component ok h3 hD hDC hL h_e h_n h_u h_w h_E h_s h_N h_b h_t h_Me h_Mn h_Mu (fun a b c d => et_kernel_ee ok h3 hD hL a b c d) (fun a b c d => et_kernel_en ok h3 hD hL a b c d) (fun a b c d => et_kernel_eu ok h3 hD hL a b c d))
    | et_step)

theorem et_magnetic_n (ok : IntOK A L) (h3 : 3 * D ^ 2 ≤ L) (hD : 2 * D ≤ L) (hDC : C + C = D) (hL : 15 ≤ L)
    {e n u w E s N b t Me Mn Mu : TFl A} {e' n' u' w' E' s' N' b' t' Me' Mn' Mu' : Fl A}
    (h_e : Rep L (C) e e') (h_n : Rep L (C) n n') (h_u : Rep L (C) u u') (h_w : Rep L (C) w w') (h_E : Rep L (C) E E') (h_s : Rep L (C) s s') (h_N : Rep L (C) N N') (h_b : Rep L (C) b b') (h_t : Rep L (C) t t') (h_Me : Rep L (L) Me Me') (h_Mn : Rep L (L) Mn Mn') (h_Mu : Rep L (L) Mu Mu') :
    ET TFl.flt (magnetic_n e n u w E s N b t Me Mn Mu) (Choclo.prism.magnetic_n e' n' u' w' E' s' N' b' t' Me' Mn' Mu') := by
  unfold magnetic_n Choclo.prism.magnetic_n
  (try dsimp only)
  have p_is_interior_point := is_interior_point_typed ok h_e h_n h_u h_w h_E h_s h_N h_b h_t
  have p_is_point_on_easting_edge := is_point_on_easting_edge_typed ok h_e h_n h_u h_w h_E h_s h_N h_b h_t
  have p_is_point_on_northing_edge := is_point_on_northing_edge_typed ok h_e h_n h_u h_w h_E h_s h_N h_b h_t
  have p_is_point_on_upward_edge := is_point_on_upward_edge_typed ok h_e h_n h_u h_w h_E h_s h_N h_b h_t
  have p_is_point_on_edge := is_point_on_edge_typed ok h_e h_n h_u h_w h_E h_s h_N h_b h_t
  have p_is_point_on_east_face := is_point_on_east_face_typed ok h_e h_n h_u h_w h_E h_s h_N h_b h_t
  have p_is_point_on_north_face := is_point_on_north_face_typed ok h_e h_n h_u h_w h_E h_s h_N h_b h_t
  have p_is_point_on_top_face := is_point_on_top_face_typed ok h_e h_n h_u h_w h_E h_s h_N h_b h_t
  repeat' (first
    | (exact et_calculate_component ok h3 hD hDC hL h_e h_n h_u h_w h_E h_s h_N h_b h_t h_Me h_Mn h_Mu (fun a b c d => et_kernel_en ok h3 hD hL a b c d) (fun a b c d => et_kernel_nn ok h3 hD hL a b c d) (fun a b c d => et_kernel_nu ok h3 hD hL a b c d))
    | et_step)

theorem et_magnetic_u (ok : IntOK A L) (h3 : 3 * D ^ 2 ≤ L) (hD : 2 * D ≤ L) (hDC : C + C = D) (hL : 15 ≤ L)
    {e n u w E s N b t Me Mn Mu : TFl A} {e' n' u' w' E' s' N' b' t' Me' Mn' Mu' : Fl A}
    (h_e : Rep L (C) e e') (h_n : Rep L (C) n n') (h_u : Rep L (C) u u') (h_w : Rep L (C) w w') (h_E : Rep L (C) E E') (h_s : Rep L (C) s s') (h_N : Rep L (C) N N') (h_b : Rep L (C) b b') (h_t : Rep L (C) t t') (h_Me : Rep L (L) Me Me') (h_Mn : Rep L (L) Mn Mn') (h_Mu : Rep L (L) Mu Mu') :
    ET TFl.flt (magnetic_u e n u w E s N b t Me Mn Mu) (Choclo.prism.magnetic_u e' n' u' w' E' s' N' b' t' Me' Mn' Mu') := by
  unfold magnetic_u Choclo.prism.magnetic_u
  (try dsimp only)
  have p_is_interior_point := is_interior_point_typed ok h_e h_n h_u h_w h_E h_s h_N h_b h_t
  have p_is_point_on_easting_edge := is_point_on_easting_edge_typed ok h_e h_n h_u h_w h_E h_s h_N h_b h_t
  have p_is_point_on_northing_edge := is_point_on_northing_edge_typed ok h_e h_n h_u h_w h_E h_s h_N h_b h_t
  have p_is_point_on_upward_edge := is_point_on_upward_edge_typed ok h_e h_n h_u h_w h_E h_s h_N h_b h_t
  have p_is_point_on_edge := is_point_on_edge_typed ok h_e h_n h_u h_w h_E h_s h_N h_b h_t
  have p_is_point_on_east_face := is_point_on_east_face_typed ok h_e h_n h_u h_w h_E h_s h_N h_b h_t
  have p_is_point_on_north_face := is_point_on_north_face_typed ok h_e h_n h_u h_w h_E h_s h_N h_b h_t
  have p_is_point_on_top_face := is_point_on_top_face_typed ok h_e h_n h_u h_w h_E h_s h_N h_b h_t
  repeat' (first
    | (exact et_calculate_component ok h3 hD hDC hL h_e h_n h_u h_w h_E h_s h_N h_b h_t h_Me h_Mn h_Mu (fun a b c d => et_kernel_eu ok h3 hD hL a b c d) (fun a b c d => et_kernel_nu ok h3 hD hL a b c d) (fun a b c d => et_kernel_uu ok h3 hD hL a b c d))
    | et_step)

theorem et_magnetic_ee (ok : IntOK A L) (h4 : 4 * D ^ 4 ≤ L) (h2 : 4 * D ^ 2 ≤ L) (h3 : 3 * D ^ 2 ≤ L) (hD : 2 * D ≤ L) (hDC : C + C = D) (hL : 15 ≤ L)
    {e n u w E s N b t Me Mn Mu : TFl A} {e' n' u' w' E' s' N' b' t' Me' Mn' Mu' : Fl A}
    (h_e : Rep L (C) e e') (h_n : Rep L (C) n n') (h_u : Rep L (C) u u') (h_w : Rep L (C) w w') (h_E : Rep L (C) E E') (h_s : Rep L (C) s s') (h_N : Rep L (C) N N') (h_b : Rep L (C) b b') (h_t : Rep L (C) t t') (h_Me : Rep L (L) Me Me') (h_Mn : Rep L (L) Mn Mn') (h_Mu : Rep L (L) Mu Mu') :
    ET TFl.flt (magnetic_ee e n u w E s N b t Me Mn Mu) (Choclo.prism.magnetic_ee e' n' u' w' E' s' N' b' t' Me' Mn' Mu') := by
  unfold magnetic_ee Choclo.prism.magnetic_ee
  (try dsimp only)
  have p_is_interior_point := is_interior_point_typed ok h_e h_n h_u h_w h_E h_s h_N h_b h_t
  have p_is_point_on_easting_edge := is_point_on_easting_edge_typed ok h_e h_n h_u h_w h_E h_s h_N h_b h_t
  have p_is_point_on_northing_edge := is_point_on_northing_edge_typed ok h_e h_n h_u h_w h_E h_s h_N h_b h_t
  have p_is_point_on_upward_edge := is_point_on_upward_edge_typed ok h_e h_n h_u h_w h_E h_s h_N h_b h_t
  have p_is_point_on_edge := is_point_on_edge_typed ok h_e h_n h_u h_w h_E h_s h_N h_b h_t
  have p_is_point_on_east_face := is_point_on_east_face_typed ok h_e h_n h_u h_w h_E h_s h_N h_b h_t
  have p_is_point_on_north_face := is_point_on_north_face_typed ok h_e h_n h_u h_w h_E h_s h_N h_b h_t
  have p_is_point_on_top_face := is_point_on_top_face_typed ok h_e h_n h_u h_w h_E h_s h_N h_b h_t
  repeat' (first
    | (exact et_calculate_component ok h3 hD hDC hL h_e h_n h_u h_w h_E h_s h_N h_b h_t h_Me h_Mn h_Mu (fun a b c d => et_kernel_eee ok h4 h3 hD hL h2 a b c d) (fun a b c d => et_kernel_een ok h4 h3 hD hL h2 a b c d) (fun a b c d => et_kernel_eeu ok h4 h3 hD hL h2 a b c d))
    | et_step)

theorem et_magnetic_nn (ok : IntOK A L) (h4 : 4 * D ^ 4 ≤ L) (h2 : 4 * D ^ 2 ≤ L) (h3 : 3 * D ^ 2 ≤ L) (hD : 2 * D ≤ L) (hDC : C + C = D) (hL : 15 ≤ L)
    {e n u w E s N b t Me Mn Mu : TFl A} {e' n' u' w' E' s' N' b' t' Me' Mn' Mu' : Fl A}
    (h_e : Rep L (C) e e') (h_n : Rep L (C) n n') (h_u : Rep L (C) u u') (h_w : Rep L (C) w w') (h_E : Rep L (C) E E') (h_s : Rep L (C) s s') (h_N : Rep L (C) N N') (h_b : Rep L (C) b b') (h_t : Rep L (C) t t') (h_Me : Rep L (L) Me Me') (h_Mn : Rep L (L) Mn Mn') (h_Mu : Rep L (L) Mu Mu') :
    ET TFl.flt (magnetic_nn e n u w E s N b t Me Mn Mu) (Choclo.prism.magnetic_nn e' n' u' w' E' s' N' b' t' Me' Mn' Mu') := by
  unfold magnetic_nn Choclo.prism.magnetic_nn
  (try dsimp only)
  have p_is_interior_point := is_interior_point_typed ok h_e h_n h_u h_w h_E h_s h_N h_b h_t
  have p_is_point_on_easting_edge := is_point_on_easting_edge_typed ok h_e h_n h_u h_w h_E h_s h_N h_b h_t
  have p_is_point_on_northing_edge := is_point_on_northing_edge_typed ok h_e h_n h_u h_w h_E h_s h_N h_b h_t
  have p_is_point_on_upward_edge := is_point_on_upward_edge_typed ok h_e h_n h_u h_w h_E h_s h_N h_b h_t
  have p_is_point_on_edge := is_point_on_edge_typed ok h_e h_n h_u h_w h_E h_s h_N h_b h_t
  have p_is_point_on_east_face := is_point_on_east_face_typed ok h_e h_n h_u h_w h_E h_s h_N h_b h_t
  have p_is_point_on_north_face := is_point_on_north_face_typed ok h_e h_n h_u h_w h_E h_s h_N h_b h_t
  have p_is_point_on_top_face := is_point_on_top_face_typed ok h_e h_n h_u h_w h_E h_s h_N h_b h_t
  repeat' (first
    | (exact et_calculate_component ok h3 hD hDC hL h_e h_n h_u h_w h_E h_s h_N h_b h_t h_Me h_Mn h_Mu (fun a b c d => et_kernel_enn ok h4 h3 hD hL h2 a b c d) (fun a b c d => et_kernel_nnn ok h4 h3 hD hL h2 a b c d) (fun a b c d => et_kernel_nnu ok h4 h3 hD hL h2 a b c d))
    | et_step)

theorem et_magnetic_uu (ok : IntOK A L) (h4 : 4 * D ^ 4 ≤ L) (h2 : 4 * D ^ 2 ≤ L) (h3 : 3 * D ^ 2 ≤ L) (hD : 2 * D ≤ L) (hDC : C + C = D) (hL : 15 ≤ L)
    {e n u w E s N b t Me Mn Mu : TFl A} {e' n' u' w' E' s' N' b' t' Me' Mn' Mu' : Fl A}
    (h_e : Rep L (C) e e') (h_n : Rep L (C) n n') (h_u : Rep L (C) u u') (h_w : Rep L (C) w w') (h_E : Rep L (C) E E') (h_s : Rep L (C) s s') (h_N : Rep L (C) N N') (h_b : Rep L (C) b b') (h_t : Rep L (C) t t') (h_Me : Rep L (L) Me Me') (h_Mn : Rep L (L) Mn Mn') (h_Mu : Rep L (L) Mu Mu') :
    ET TFl.flt (magnetic_uu e n u w E s N b t Me Mn Mu) (Choclo.prism.magnetic_uu e' n' u' w' E' s' N' b' t' Me' Mn' Mu') := by
  unfold magnetic_uu Choclo.prism.magnetic_uu
  (try dsimp only)
  have p_is_interior_point := is_interior_point_typed ok h_e h_n h_u h_w h_E h_s h_N h_b h_t
  have p_is_point_on_easting_edge := is_point_on_easting_edge_typed ok h_e h_n h_u h_w h_E h_s h_N h_b h_t
  have p_is_point_on_northing_edge := is_point_on_northing_edge_typed ok h_e h_n h_u h_w h_E h_s h_N h_b h_t
  have p_is_point_on_upward_edge := is_point_on_upward_edge_typed ok h_e h_n h_u h_w h_E h_s h_N h_b h_t
  have p_is_point_on_edge := is_point_on_edge_typed ok h_e h_n h_u h_w h_E h_s h_N h_b h_t
  have p_is_point_on_east_face := is_point_on_east_face_typed ok h_e h_n h_u h_w h_E h_s h_N h_b h_t
  have p_is_point_on_north_face := is_point_on_north_face_typed ok h_e h_n h_u h_w h_E h_s h_N h_b h_t
  have p_is_point_on_top_face := is_point_on_top_face_typed ok h_e h_n h_u h_w h_E h_s h_N h_b h_t
  repeat' (first
    | (exact et_calculate_component ok h3 hD hDC hL h_e h_n h_u h_w h_E h_s h_N h_b h_t h_Me h_Mn h_Mu (fun a b c d => et_kernel_euu ok h4 h3 hD hL h2 a b c d) (fun a b c d => et_kernel_nuu ok h4 h3 hD hL h2 a b c d) (fun a b c d => et_kernel_uuu ok h4 h3 hD hL h2 a b c d))
    | et_step)

theorem et_magnetic_en (ok : IntOK A L) (h4 : 4 * D ^ 4 ≤ L) (h2 : 4 * D ^ 2 ≤ L) (h3 : 3 * D ^ 2 ≤ L) (hD : 2 * D ≤ L) (hDC : C + C = D) (hL : 15 ≤ L)
    {e n u w E s N b t Me Mn Mu : TFl A} {e' n' u' w' E' s' N' b' t' Me' Mn' Mu' : Fl A}
    (h_e : Rep L (C) e e') (h_n : Rep L (C) n n') (h_u : Rep L (C) u u') (h_w : Rep L (C) w w') (h_E : Rep L (C) E E') (h_s : Rep L (C) s s') (h_N : Rep L (C) N N') (h_b : Rep L (C) b b') (h_t : Rep L (C) t t') (h_Me : Rep L (L) Me Me') (h_Mn : Rep L (L) Mn Mn') (h_Mu : Rep L (L) Mu Mu') :
    ET TFl.flt (magnetic_en e n u w E s N b t Me Mn Mu) (Choclo.prism.magnetic_en e' n' u' w' E' s' N' b' t' Me' Mn' Mu') := by
  unfold magnetic_en Choclo.prism.magnetic_en
  (try dsimp only)
  have p_is_interior_point := is_interior_point_typed ok h_e h_n h_u h_w h_E h_s h_N h_b h_t
  have p_is_point_on_easting_edge := is_point_on_easting_edge_typed ok h_e h_n h_u h_w h_E h_s h_N h_b h_t
  have p_is_point_on_northing_edge := is_point_on_northing_edge_typed ok h_e h_n h_u h_w h_E h_s h_N h_b h_t
  have p_is_point_on_upward_edge := is_point_on_upward_edge_typed ok h_e h_n h_u h_w h_E h_s h_N h_b h_t
  have p_is_point_on_edge := is_point_on_edge_typed ok h_e h_n h_u h_w h_E h_s h_N h_b h_t
  have p_is_point_on_east_face := is_point_on_east_face_typed ok h_e h_n h_u h_w h_E h_s h_N h_b h_t
  have p_is_point_on_north_face := is_point_on_north_face_typed ok h_e h_n h_u h_w h_E h_s h_N h_b h_t
  have p_is_point_on_top_face := is_point_on_top_face_typed ok h_e h_n h_u h_w h_E h_s h_N h_b h_t
  repeat' (first
    | (exact et_calculate_component ok h3 hD hDC hL h_e h_n h_u h_w h_E h_s h_N h_b h_t h_Me h_Mn h_Mu (fun a b c d => et_kernel_een ok h4 h3 hD hL h2 a b c d) (fun a b c d => et_kernel_enn ok h4 h3 hD hL h2 a b c d) (fun a b c d => et_kernel_enu ok h4 h3 hD hL h2 a b c d))
    | et_step)

theorem et_magnetic_eu (ok : IntOK A L) (h4 : 4 * D ^ 4 ≤ L) (h2 : 4 * D ^ 2 ≤ L) (h3 : 3 * D ^ 2 ≤ L) (hD : 2 * D ≤ L) (hDC : C + C = D) (hL : 15 ≤ L)
    {e n u w E s N b t Me Mn Mu : TFl A} {e' n' u' w' E' s' N' b' t' Me' Mn' Mu' : Fl A}
    (h_e : Rep L (C) e e') (h_n : Rep L (C) n n') (h_u : Rep L (C) u u') (h_w : Rep L (C) w w') (h_E : Rep L (C) E E') (h_s : Rep L (C) s s') (h_N : Rep L (C) N N') (h_b : Rep L (C) b b') (h_t : Rep L (C) t t') (h_Me : Rep L (L) Me Me') (h_Mn : Rep L (L) Mn Mn') (h_Mu : Rep L (L) Mu Mu') :
    ET TFl.flt (magnetic_eu e n u w E s N b t Me Mn Mu) (Choclo.prism.magnetic_eu e' n' u' w' E' s' N' b' t' Me' Mn' Mu') := by
  unfold magnetic_eu Choclo.prism.magnetic_eu
  (try dsimp only)
  have p_is_interior_point := is_interior_point_typed ok h_e h_n h_u h_w h_E h_s h_N h_b h_t
  have p_is_point_on_easting_edge := is_point_on_easting_edge_typed ok h_e h_n h_u h_w h_E h_s h_N h_b h_t
  have p_is_point_on_northing_edge := is_point_on_northing_edge_typed ok h_e h_n h_u h_w h_E h_s h_N h_b h_t
  have p_is_point_on_upward_edge := is_point_on_upward_edge_typed ok h_e h_n h_u h_w h_E h_s h_N h_b h_t
  have p_is_point_on_edge := is_point_on_edge_typed ok h_e h_n h_u h_w h_E h_s h_N h_b h_t
  have p_is_point_on_east_face := is_point_on_east_face_typed ok h_e h_n h_u h_w h_E h_s h_N h_b h_t
  have p_is_point_on_north_face := is_point_on_north_face_typed ok h_e h_n h_u h_w h_E h_s h_N h_b h_t
  have p_is_point_on_top_face := is_point_on_top_face_typed ok h_e h_n h_u h_w h_E h_s h_N h_b h_t
  repeat' (first
    | (exact et_calculate_component ok h3 hD hDC hL h_e h_n h_u h_w h_E h_s h_N h_b h_t h_Me h_Mn h_Mu (fun a b c d => et_kernel_eeu ok h4 h3 hD hL h2 a b c d) (fun a b c d => et_kernel_enu ok h4 h3 hD hL h2 a b c d) (fun a b c d => et_kernel_euu ok h4 h3 hD hL h2 a b c d))
    | et_step)

theorem et_magnetic_nu (ok : IntOK A L) (h4 : 4 * D ^ 4 ≤ L) (h2 : 4 * D ^ 2 ≤ L) (h3 : 3 * D ^ 2 ≤ L) (hD : 2 * D ≤ L) (hDC : C + C = D) (hL : 15 ≤ L)
    {e n u w E s N b t Me Mn Mu : TFl A} {e' n' u' w' E' s' N' b' t' Me' Mn' Mu' : Fl A}
    (h_e : Rep L (C) e e') (h_n : Rep L (C) n n') (h_u : Rep L (C) u u') (h_w : Rep L (C) w w') (h_E : Rep L (C) E E') (h_s : Rep L (C) s s') (h_N : Rep L (C) N N') (h_b : Rep L (C) b b') (h_t : Rep L (C) t t') (h_Me : Rep L (L) Me Me') (h_Mn : Rep L (L) Mn Mn') (h_Mu : Rep L (L) Mu Mu') :
    ET TFl.flt (magnetic_nu e n u w E s N b t Me Mn Mu) (Choclo.prism.magnetic_nu e' n' u' w' E' s' N' b' t' Me' Mn' Mu') := by
  unfold magnetic_nu Choclo.prism.magnetic_nu
  (try dsimp only)
  have p_is_interior_point := is_interior_point_typed ok h_e h_n h_u h_w h_E h_s h_N h_b h_t
  have p_is_point_on_easting_edge := is_point_on_easting_edge_typed ok h_e h_n h_u h_w h_E h_s h_N h_b h_t
  have p_is_point_on_northing_edge := is_point_on_northing_edge_typed ok h_e h_n h_u h_w h_E h_s h_N h_b h_t
  have p_is_point_on_upward_edge := is_point_on_upward_edge_typed ok h_e h_n h_u h_w h_E h_s h_N h_b h_t
  have p_is_point_on_edge := is_point_on_edge_typed ok h_e h_n h_u h_w h_E h_s h_N h_b h_t
  have p_is_point_on_east_face := is_point_on_east_face_typed ok h_e h_n h_u h_w h_E h_s h_N h_b h_t
  have p_is_point_on_north_face := is_point_on_north_face_typed ok h_e h_n h_u h_w h_E h_s h_N h_b h_t
  have p_is_point_on_top_face := is_point_on_top_face_typed ok h_e h_n h_u h_w h_E h_s h_N h_b h_t
  repeat' (first
    | (exact et_calculate_component ok h3 hD hDC hL h_e h_n h_u h_w h_E h_s h_N h_b h_t h_Me h_Mn h_Mu (fun a b c d => et_kernel_enu ok h4 h3 hD hL h2 a b c d) (fun a b c d => et_kernel_nnu ok h4 h3 hD hL h2 a b c d) (fun a b c d => et_kernel_nuu ok h4 h3 hD hL h2 a b c d))
    | et_step)

end prism

end Typed

end Choclo
