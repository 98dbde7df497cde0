import Verif.Lemmas.Unsigned
import Verif.Props.Typed
import Verif.Props.NumbaPow

/-! # Unsigned integer coordinates (C148)

A difference of two unsigned integers is reduced modulo `2^64`, also when it should be negative.  Where the code squares it or multiplies
it with a signed integer the result is right nevertheless: distances, the potential, the gravity tensor, the third-order kernels and the
field of a dipole with integer moment.  The three components of the acceleration are wrong as soon as the observation point is east of,
north of or above the source: there the negative of the difference is converted to a float. -/

namespace Choclo

variable {A : Arith} {L C M : ℕ}

/-- two calls with the same outcome -/
def Both (u : Py (UFl A)) (t : Py (TFl A)) : Prop := ∃ x : Py (Fl A), u = x.map UFl.flt ∧ t = x.map TFl.flt

theorem map_flt_inj {x y : Py (Fl A)} (h : x.map TFl.flt = y.map TFl.flt) : x = y := by
  cases x <;> cases y <;> cases h <;> rfl

theorem Both.same {u : Py (UFl A)} {t : Py (TFl A)} {c : Py (Fl A)} (h : Both u t) (k : SameCall t c) : SameCallU u c := by
  obtain ⟨x, rfl, rfl⟩ := h
  exact congrArg (Except.map UFl.flt) (map_flt_inj k)

theorem Both.div {x y : UFl A} {t s : TFl A} (h : x.toFl = t.toFl) (k : y.toFl = s.toFl) : Both (x /ᵤ y) (t /ᵢ s) :=
  ⟨t.toFl /. s.toFl, by unfold UFl.div; rw [h, k], rfl⟩

theorem Both.div_pow {x : UFl A} {t : TFl A} (h : Si x t) (D : Fl A) (n : ℕ) : Both (x /ᵤ .flt D ^ n) (t /ᵢ .flt D ^ n) :=
  Both.div h.toFl rfl

theorem Both.bind_sub {u v : Py (UFl A)} {t s : Py (TFl A)} (h : Both u t) (k : Both v s) :
    Both (do return (← u) - (← v)) (do return (← t) - (← s)) := by
  obtain ⟨x, rfl, rfl⟩ := h
  obtain ⟨y, rfl, rfl⟩ := k
  refine ⟨do return (← x) - (← y), ?_, ?_⟩ <;> cases x <;> cases y <;> rfl

theorem Both.bind_pure {u : Py (UFl A)} {t : Py (TFl A)} (h : Both u t) : Both (do return ← u) (do return ← t) := by
  obtain ⟨x, rfl, rfl⟩ := h
  refine ⟨x, ?_, ?_⟩ <;> cases x <;> rfl

theorem Both.scale {u : Py (UFl A)} {t : Py (TFl A)} (h : Both u t) (g : Fl A) (m : UFl A) :
    Both (do let k ← u; return (UFl.flt g) * m * k) (do let k ← t; return (TFl.flt g) * (.flt m.toFl) * k) := by
  obtain ⟨x, rfl, rfl⟩ := h
  refine ⟨do return g * m.toFl * (← x), ?_, ?_⟩
  · cases x with
    | ok v => cases m <;> rfl
    | error e => rfl
  · cases x <;> rfl

theorem Si.neg {x : UFl A} {t : TFl A} (h : Si x t) : Si (-x) (-t) := by
  obtain ⟨n, rfl, rfl⟩ := h
  exact ⟨_, rfl, rfl⟩

theorem one_si : Si (1 : UFl A) (1 : TFl A) := ⟨_, rfl, rfl⟩

section
variable {a b c d e f : UFl A} {a' b' c' d' e' f' : TFl A}

theorem both_distance (ha : Co a a') (hb : Co b b') (hc : Co c c') (hd : Co d d') (he : Co e e') (hf : Co f f') :
    ∃ D, Unsigned.utils.distance_cartesian a b c d e f = .ok (.flt D)
      ∧ Typed.utils.distance_cartesian a' b' c' d' e' f' = .ok (.flt D) := by
  refine ⟨_, rfl, ?_⟩
  have h := ((((ha.sub hd).pow 2).add ((hb.sub he).pow 2)).add ((hc.sub hf).pow 2)).toFl
  exact congrArg (fun z : Fl A => (Except.ok (TFl.flt (Fl.sqrt z)) : Py (TFl A))) h.symm

set_option linter.unusedVariables false in
theorem both_kernel_pot (ha : Co a a') (hb : Co b b') (hc : Co c c') (hd : Co d d') (he : Co e e') (hf : Co f f') (D : Fl A) :
    Both (Unsigned.point.kernel_pot a b c d e f (.flt D)) (Typed.point.kernel_pot a' b' c' d' e' f' (.flt D)) :=
  Both.bind_pure (Both.div (x := 1) (t := 1) rfl rfl)

set_option linter.unusedVariables false in
theorem both_kernel_ee (ha : Co a a') (hb : Co b b') (hc : Co c c') (hd : Co d d') (he : Co e e') (hf : Co f f') (D : Fl A) :
    Both (Unsigned.point.kernel_ee a b c d e f (.flt D)) (Typed.point.kernel_ee a' b' c' d' e' f' (.flt D)) :=
  Both.bind_sub (Both.div_pow ((Si.lit (A := A) 3).mul ((ha.sub hd).pow 2).co) D 5) (Both.div_pow one_si D 3)

set_option linter.unusedVariables false in
theorem both_kernel_nn (ha : Co a a') (hb : Co b b') (hc : Co c c') (hd : Co d d') (he : Co e e') (hf : Co f f') (D : Fl A) :
    Both (Unsigned.point.kernel_nn a b c d e f (.flt D)) (Typed.point.kernel_nn a' b' c' d' e' f' (.flt D)) :=
  Both.bind_sub (Both.div_pow ((Si.lit (A := A) 3).mul ((hb.sub he).pow 2).co) D 5) (Both.div_pow one_si D 3)

set_option linter.unusedVariables false in
theorem both_kernel_uu (ha : Co a a') (hb : Co b b') (hc : Co c c') (hd : Co d d') (he : Co e e') (hf : Co f f') (D : Fl A) :
    Both (Unsigned.point.kernel_uu a b c d e f (.flt D)) (Typed.point.kernel_uu a' b' c' d' e' f' (.flt D)) :=
  Both.bind_sub (Both.div_pow ((Si.lit (A := A) 3).mul ((hc.sub hf).pow 2).co) D 5) (Both.div_pow one_si D 3)

set_option linter.unusedVariables false in
theorem both_kernel_en (ha : Co a a') (hb : Co b b') (hc : Co c c') (hd : Co d d') (he : Co e e') (hf : Co f f') (D : Fl A) :
    Both (Unsigned.point.kernel_en a b c d e f (.flt D)) (Typed.point.kernel_en a' b' c' d' e' f' (.flt D)) :=
  Both.bind_pure (Both.div_pow (((Si.lit (A := A) 3).mul (ha.sub hd)).mul (hb.sub he)) D 5)

set_option linter.unusedVariables false in
theorem both_kernel_eu (ha : Co a a') (hb : Co b b') (hc : Co c c') (hd : Co d d') (he : Co e e') (hf : Co f f') (D : Fl A) :
    Both (Unsigned.point.kernel_eu a b c d e f (.flt D)) (Typed.point.kernel_eu a' b' c' d' e' f' (.flt D)) :=
  Both.bind_pure (Both.div_pow (((Si.lit (A := A) 3).mul (ha.sub hd)).mul (hc.sub hf)) D 5)

set_option linter.unusedVariables false in
theorem both_kernel_nu (ha : Co a a') (hb : Co b b') (hc : Co c c') (hd : Co d d') (he : Co e e') (hf : Co f f') (D : Fl A) :
    Both (Unsigned.point.kernel_nu a b c d e f (.flt D)) (Typed.point.kernel_nu a' b' c' d' e' f' (.flt D)) :=
  Both.bind_pure (Both.div_pow (((Si.lit (A := A) 3).mul (hb.sub he)).mul (hc.sub hf)) D 5)

set_option linter.unusedVariables false in
theorem both_kernel_eee (ha : Co a a') (hb : Co b b') (hc : Co c c') (hd : Co d d') (he : Co e e') (hf : Co f f') (D : Fl A) :
    Both (Unsigned.point.kernel_eee a b c d e f (.flt D)) (Typed.point.kernel_eee a' b' c' d' e' f' (.flt D)) :=
  Both.bind_sub (Both.div_pow ((Si.lit (A := A) 9).mul (ha.sub hd)) D 5) (Both.div_pow ((Si.lit (A := A) 15).mul ((ha.sub hd).pow 3).co) D 7)

set_option linter.unusedVariables false in
theorem both_kernel_nnn (ha : Co a a') (hb : Co b b') (hc : Co c c') (hd : Co d d') (he : Co e e') (hf : Co f f') (D : Fl A) :
    Both (Unsigned.point.kernel_nnn a b c d e f (.flt D)) (Typed.point.kernel_nnn a' b' c' d' e' f' (.flt D)) :=
  Both.bind_sub (Both.div_pow ((Si.lit (A := A) 9).mul (hb.sub he)) D 5) (Both.div_pow ((Si.lit (A := A) 15).mul ((hb.sub he).pow 3).co) D 7)

set_option linter.unusedVariables false in
theorem both_kernel_uuu (ha : Co a a') (hb : Co b b') (hc : Co c c') (hd : Co d d') (he : Co e e') (hf : Co f f') (D : Fl A) :
    Both (Unsigned.point.kernel_uuu a b c d e f (.flt D)) (Typed.point.kernel_uuu a' b' c' d' e' f' (.flt D)) :=
  Both.bind_sub (Both.div_pow ((Si.lit (A := A) 9).mul (hc.sub hf)) D 5) (Both.div_pow ((Si.lit (A := A) 15).mul ((hc.sub hf).pow 3).co) D 7)

set_option linter.unusedVariables false in
theorem both_kernel_een (ha : Co a a') (hb : Co b b') (hc : Co c c') (hd : Co d d') (he : Co e e') (hf : Co f f') (D : Fl A) :
    Both (Unsigned.point.kernel_een a b c d e f (.flt D)) (Typed.point.kernel_een a' b' c' d' e' f' (.flt D)) :=
  Both.bind_sub (Both.div_pow ((Si.lit (A := A) 3).mul (hb.sub he)) D 5) (Both.div_pow (((Si.lit (A := A) 15).mul ((ha.sub hd).pow 2).co).mul (hb.sub he)) D 7)

set_option linter.unusedVariables false in
theorem both_kernel_eeu (ha : Co a a') (hb : Co b b') (hc : Co c c') (hd : Co d d') (he : Co e e') (hf : Co f f') (D : Fl A) :
    Both (Unsigned.point.kernel_eeu a b c d e f (.flt D)) (Typed.point.kernel_eeu a' b' c' d' e' f' (.flt D)) :=
  Both.bind_sub (Both.div_pow ((Si.lit (A := A) 3).mul (hc.sub hf)) D 5) (Both.div_pow (((Si.lit (A := A) 15).mul ((ha.sub hd).pow 2).co).mul (hc.sub hf)) D 7)

set_option linter.unusedVariables false in
theorem both_kernel_nne (ha : Co a a') (hb : Co b b') (hc : Co c c') (hd : Co d d') (he : Co e e') (hf : Co f f') (D : Fl A) :
    Both (Unsigned.point.kernel_nne a b c d e f (.flt D)) (Typed.point.kernel_nne a' b' c' d' e' f' (.flt D)) :=
  Both.bind_sub (Both.div_pow ((Si.lit (A := A) 3).mul (ha.sub hd)) D 5) (Both.div_pow (((Si.lit (A := A) 15).mul ((hb.sub he).pow 2).co).mul (ha.sub hd)) D 7)

set_option linter.unusedVariables false in
theorem both_kernel_nnu (ha : Co a a') (hb : Co b b') (hc : Co c c') (hd : Co d d') (he : Co e e') (hf : Co f f') (D : Fl A) :
    Both (Unsigned.point.kernel_nnu a b c d e f (.flt D)) (Typed.point.kernel_nnu a' b' c' d' e' f' (.flt D)) :=
  Both.bind_sub (Both.div_pow ((Si.lit (A := A) 3).mul (hc.sub hf)) D 5) (Both.div_pow (((Si.lit (A := A) 15).mul ((hb.sub he).pow 2).co).mul (hc.sub hf)) D 7)

set_option linter.unusedVariables false in
theorem both_kernel_uue (ha : Co a a') (hb : Co b b') (hc : Co c c') (hd : Co d d') (he : Co e e') (hf : Co f f') (D : Fl A) :
    Both (Unsigned.point.kernel_uue a b c d e f (.flt D)) (Typed.point.kernel_uue a' b' c' d' e' f' (.flt D)) :=
  Both.bind_sub (Both.div_pow ((Si.lit (A := A) 3).mul (ha.sub hd)) D 5) (Both.div_pow (((Si.lit (A := A) 15).mul ((hc.sub hf).pow 2).co).mul (ha.sub hd)) D 7)

set_option linter.unusedVariables false in
theorem both_kernel_uun (ha : Co a a') (hb : Co b b') (hc : Co c c') (hd : Co d d') (he : Co e e') (hf : Co f f') (D : Fl A) :
    Both (Unsigned.point.kernel_uun a b c d e f (.flt D)) (Typed.point.kernel_uun a' b' c' d' e' f' (.flt D)) :=
  Both.bind_sub (Both.div_pow ((Si.lit (A := A) 3).mul (hb.sub he)) D 5) (Both.div_pow (((Si.lit (A := A) 15).mul ((hc.sub hf).pow 2).co).mul (hb.sub he)) D 7)

set_option linter.unusedVariables false in
theorem both_kernel_enu (ha : Co a a') (hb : Co b b') (hc : Co c c') (hd : Co d d') (he : Co e e') (hf : Co f f') (D : Fl A) :
    Both (Unsigned.point.kernel_enu a b c d e f (.flt D)) (Typed.point.kernel_enu a' b' c' d' e' f' (.flt D)) :=
  Both.bind_pure (Both.div_pow ((((Si.lit (A := A) 15).neg.mul (ha.sub hd)).mul (hb.sub he)).mul (hc.sub hf)) D 7)

theorem both_gravity_pot (ha : Co a a') (hb : Co b b') (hc : Co c c') (hd : Co d d') (he : Co e e') (hf : Co f f') (m : UFl A) :
    Both (Unsigned.point.gravity_pot a b c d e f m) (Typed.point.gravity_pot a' b' c' d' e' f' (.flt m.toFl)) := by
  obtain ⟨D, h1, h2⟩ := both_distance ha hb hc hd he hf
  unfold Unsigned.point.gravity_pot Typed.point.gravity_pot
  rw [h1, h2]
  exact (both_kernel_pot ha hb hc hd he hf D).scale _ m

theorem both_gravity_ee (ha : Co a a') (hb : Co b b') (hc : Co c c') (hd : Co d d') (he : Co e e') (hf : Co f f') (m : UFl A) :
    Both (Unsigned.point.gravity_ee a b c d e f m) (Typed.point.gravity_ee a' b' c' d' e' f' (.flt m.toFl)) := by
  obtain ⟨D, h1, h2⟩ := both_distance ha hb hc hd he hf
  unfold Unsigned.point.gravity_ee Typed.point.gravity_ee
  rw [h1, h2]
  exact (both_kernel_ee ha hb hc hd he hf D).scale _ m

theorem both_gravity_nn (ha : Co a a') (hb : Co b b') (hc : Co c c') (hd : Co d d') (he : Co e e') (hf : Co f f') (m : UFl A) :
    Both (Unsigned.point.gravity_nn a b c d e f m) (Typed.point.gravity_nn a' b' c' d' e' f' (.flt m.toFl)) := by
  obtain ⟨D, h1, h2⟩ := both_distance ha hb hc hd he hf
  unfold Unsigned.point.gravity_nn Typed.point.gravity_nn
  rw [h1, h2]
  exact (both_kernel_nn ha hb hc hd he hf D).scale _ m

theorem both_gravity_uu (ha : Co a a') (hb : Co b b') (hc : Co c c') (hd : Co d d') (he : Co e e') (hf : Co f f') (m : UFl A) :
    Both (Unsigned.point.gravity_uu a b c d e f m) (Typed.point.gravity_uu a' b' c' d' e' f' (.flt m.toFl)) := by
  obtain ⟨D, h1, h2⟩ := both_distance ha hb hc hd he hf
  unfold Unsigned.point.gravity_uu Typed.point.gravity_uu
  rw [h1, h2]
  exact (both_kernel_uu ha hb hc hd he hf D).scale _ m

theorem both_gravity_en (ha : Co a a') (hb : Co b b') (hc : Co c c') (hd : Co d d') (he : Co e e') (hf : Co f f') (m : UFl A) :
    Both (Unsigned.point.gravity_en a b c d e f m) (Typed.point.gravity_en a' b' c' d' e' f' (.flt m.toFl)) := by
  obtain ⟨D, h1, h2⟩ := both_distance ha hb hc hd he hf
  unfold Unsigned.point.gravity_en Typed.point.gravity_en
  rw [h1, h2]
  exact (both_kernel_en ha hb hc hd he hf D).scale _ m

theorem both_gravity_eu (ha : Co a a') (hb : Co b b') (hc : Co c c') (hd : Co d d') (he : Co e e') (hf : Co f f') (m : UFl A) :
    Both (Unsigned.point.gravity_eu a b c d e f m) (Typed.point.gravity_eu a' b' c' d' e' f' (.flt m.toFl)) := by
  obtain ⟨D, h1, h2⟩ := both_distance ha hb hc hd he hf
  unfold Unsigned.point.gravity_eu Typed.point.gravity_eu
  rw [h1, h2]
  exact (both_kernel_eu ha hb hc hd he hf D).scale _ m

theorem both_gravity_nu (ha : Co a a') (hb : Co b b') (hc : Co c c') (hd : Co d d') (he : Co e e') (hf : Co f f') (m : UFl A) :
    Both (Unsigned.point.gravity_nu a b c d e f m) (Typed.point.gravity_nu a' b' c' d' e' f' (.flt m.toFl)) := by
  obtain ⟨D, h1, h2⟩ := both_distance ha hb hc hd he hf
  unfold Unsigned.point.gravity_nu Typed.point.gravity_nu
  rw [h1, h2]
  exact (both_kernel_nu ha hb hc hd he hf D).scale _ m

end

/-- Integers up to `C`, signed and unsigned in any mixture: the distance is that of the same numbers as floats, to the last bit. -/
theorem C148_distance (hA : A.ExactInts L) (hL : L < 2 ^ 63) (hC : 12 * C ^ 2 ≤ L) :
    OnUnsigned C SameCallU (Unsigned.utils.distance_cartesian (A := A)) utils.distance_cartesian := by
  intro a b c d e f ha hb hc hd he hf
  obtain ⟨D, h1, h2⟩ := both_distance ha.co hb.co hc.co hd.co he.co hf.co
  have h := C89_distance hA hL hC _ ha.upTo _ hb.upTo _ hc.upTo _ hd.upTo _ he.upTo _ hf.upTo
  simp only [UFl.asInt_toFl] at h
  exact Both.same ⟨.ok D, h1, h2⟩ h

/-- The same for the potential and the gravity tensor of a point mass (of any mass). -/
theorem C148_gravity (hA : A.ExactInts L) (hL : L < 2 ^ 63) (hC : 12 * C ^ 2 ≤ L) (h15 : 15 ≤ L) (m : UFl A) :
    OnUnsigned C SameCallU (fun a b c d e f => Unsigned.point.gravity_pot (A := A) a b c d e f m)
        (fun a b c d e f => point.gravity_pot a b c d e f m.toFl)
    ∧ OnUnsigned C SameCallU (fun a b c d e f => Unsigned.point.gravity_ee (A := A) a b c d e f m)
        (fun a b c d e f => point.gravity_ee a b c d e f m.toFl)
    ∧ OnUnsigned C SameCallU (fun a b c d e f => Unsigned.point.gravity_nn (A := A) a b c d e f m)
        (fun a b c d e f => point.gravity_nn a b c d e f m.toFl)
    ∧ OnUnsigned C SameCallU (fun a b c d e f => Unsigned.point.gravity_uu (A := A) a b c d e f m)
        (fun a b c d e f => point.gravity_uu a b c d e f m.toFl)
    ∧ OnUnsigned C SameCallU (fun a b c d e f => Unsigned.point.gravity_en (A := A) a b c d e f m)
        (fun a b c d e f => point.gravity_en a b c d e f m.toFl)
    ∧ OnUnsigned C SameCallU (fun a b c d e f => Unsigned.point.gravity_eu (A := A) a b c d e f m)
        (fun a b c d e f => point.gravity_eu a b c d e f m.toFl)
    ∧ OnUnsigned C SameCallU (fun a b c d e f => Unsigned.point.gravity_nu (A := A) a b c d e f m)
        (fun a b c d e f => point.gravity_nu a b c d e f m.toFl) := by
  have H := C89_point_gravity hA hL hC h15
  refine ⟨?_, ?_, ?_, ?_, ?_, ?_, ?_⟩ <;> intro a b c d e f ha hb hc hd he hf
  · have h := H.1 _ ha.upTo _ hb.upTo _ hc.upTo _ hd.upTo _ he.upTo _ hf.upTo (.flt m.toFl) trivial
    simp only [UFl.asInt_toFl] at h
    exact (both_gravity_pot ha.co hb.co hc.co hd.co he.co hf.co m).same h
  · have h := H.2.2.2.2.1 _ ha.upTo _ hb.upTo _ hc.upTo _ hd.upTo _ he.upTo _ hf.upTo (.flt m.toFl) trivial
    simp only [UFl.asInt_toFl] at h
    exact (both_gravity_ee ha.co hb.co hc.co hd.co he.co hf.co m).same h
  · have h := H.2.2.2.2.2.1 _ ha.upTo _ hb.upTo _ hc.upTo _ hd.upTo _ he.upTo _ hf.upTo (.flt m.toFl) trivial
    simp only [UFl.asInt_toFl] at h
    exact (both_gravity_nn ha.co hb.co hc.co hd.co he.co hf.co m).same h
  · have h := H.2.2.2.2.2.2.1 _ ha.upTo _ hb.upTo _ hc.upTo _ hd.upTo _ he.upTo _ hf.upTo (.flt m.toFl) trivial
    simp only [UFl.asInt_toFl] at h
    exact (both_gravity_uu ha.co hb.co hc.co hd.co he.co hf.co m).same h
  · have h := H.2.2.2.2.2.2.2.1 _ ha.upTo _ hb.upTo _ hc.upTo _ hd.upTo _ he.upTo _ hf.upTo (.flt m.toFl) trivial
    simp only [UFl.asInt_toFl] at h
    exact (both_gravity_en ha.co hb.co hc.co hd.co he.co hf.co m).same h
  · have h := H.2.2.2.2.2.2.2.2.1 _ ha.upTo _ hb.upTo _ hc.upTo _ hd.upTo _ he.upTo _ hf.upTo (.flt m.toFl) trivial
    simp only [UFl.asInt_toFl] at h
    exact (both_gravity_eu ha.co hb.co hc.co hd.co he.co hf.co m).same h
  · have h := H.2.2.2.2.2.2.2.2.2 _ ha.upTo _ hb.upTo _ hc.upTo _ hd.upTo _ he.upTo _ hf.upTo (.flt m.toFl) trivial
    simp only [UFl.asInt_toFl] at h
    exact (both_gravity_nu ha.co hb.co hc.co hd.co he.co hf.co m).same h

/-- The same for the third-order kernels. -/
theorem C148_third (hA : A.ExactInts L) (hL : L < 2 ^ 63) (hC : 120 * C ^ 3 ≤ L) (h15 : 15 ≤ L) (r : Fl A) :
    OnUnsigned C SameCallU (fun a b c d e f => Unsigned.point.kernel_eee (A := A) a b c d e f (.flt r))
        (fun a b c d e f => point.kernel_eee a b c d e f r)
    ∧ OnUnsigned C SameCallU (fun a b c d e f => Unsigned.point.kernel_nnn (A := A) a b c d e f (.flt r))
        (fun a b c d e f => point.kernel_nnn a b c d e f r)
    ∧ OnUnsigned C SameCallU (fun a b c d e f => Unsigned.point.kernel_uuu (A := A) a b c d e f (.flt r))
        (fun a b c d e f => point.kernel_uuu a b c d e f r)
    ∧ OnUnsigned C SameCallU (fun a b c d e f => Unsigned.point.kernel_een (A := A) a b c d e f (.flt r))
        (fun a b c d e f => point.kernel_een a b c d e f r)
    ∧ OnUnsigned C SameCallU (fun a b c d e f => Unsigned.point.kernel_eeu (A := A) a b c d e f (.flt r))
        (fun a b c d e f => point.kernel_eeu a b c d e f r)
    ∧ OnUnsigned C SameCallU (fun a b c d e f => Unsigned.point.kernel_nne (A := A) a b c d e f (.flt r))
        (fun a b c d e f => point.kernel_nne a b c d e f r)
    ∧ OnUnsigned C SameCallU (fun a b c d e f => Unsigned.point.kernel_nnu (A := A) a b c d e f (.flt r))
        (fun a b c d e f => point.kernel_nnu a b c d e f r)
    ∧ OnUnsigned C SameCallU (fun a b c d e f => Unsigned.point.kernel_uue (A := A) a b c d e f (.flt r))
        (fun a b c d e f => point.kernel_uue a b c d e f r)
    ∧ OnUnsigned C SameCallU (fun a b c d e f => Unsigned.point.kernel_uun (A := A) a b c d e f (.flt r))
        (fun a b c d e f => point.kernel_uun a b c d e f r)
    ∧ OnUnsigned C SameCallU (fun a b c d e f => Unsigned.point.kernel_enu (A := A) a b c d e f (.flt r))
        (fun a b c d e f => point.kernel_enu a b c d e f r) := by
  have H := C89_point_kernels_third hA hL hC h15 r
  refine ⟨?_, ?_, ?_, ?_, ?_, ?_, ?_, ?_, ?_, ?_⟩ <;> intro a b c d e f ha hb hc hd he hf
  · have h := H.1 _ ha.upTo _ hb.upTo _ hc.upTo _ hd.upTo _ he.upTo _ hf.upTo
    simp only [UFl.asInt_toFl] at h
    exact (both_kernel_eee ha.co hb.co hc.co hd.co he.co hf.co r).same h
  · have h := H.2.1 _ ha.upTo _ hb.upTo _ hc.upTo _ hd.upTo _ he.upTo _ hf.upTo
    simp only [UFl.asInt_toFl] at h
    exact (both_kernel_nnn ha.co hb.co hc.co hd.co he.co hf.co r).same h
  · have h := H.2.2.1 _ ha.upTo _ hb.upTo _ hc.upTo _ hd.upTo _ he.upTo _ hf.upTo
    simp only [UFl.asInt_toFl] at h
    exact (both_kernel_uuu ha.co hb.co hc.co hd.co he.co hf.co r).same h
  · have h := H.2.2.2.1 _ ha.upTo _ hb.upTo _ hc.upTo _ hd.upTo _ he.upTo _ hf.upTo
    simp only [UFl.asInt_toFl] at h
    exact (both_kernel_een ha.co hb.co hc.co hd.co he.co hf.co r).same h
  · have h := H.2.2.2.2.1 _ ha.upTo _ hb.upTo _ hc.upTo _ hd.upTo _ he.upTo _ hf.upTo
    simp only [UFl.asInt_toFl] at h
    exact (both_kernel_eeu ha.co hb.co hc.co hd.co he.co hf.co r).same h
  · have h := H.2.2.2.2.2.1 _ ha.upTo _ hb.upTo _ hc.upTo _ hd.upTo _ he.upTo _ hf.upTo
    simp only [UFl.asInt_toFl] at h
    exact (both_kernel_nne ha.co hb.co hc.co hd.co he.co hf.co r).same h
  · have h := H.2.2.2.2.2.2.1 _ ha.upTo _ hb.upTo _ hc.upTo _ hd.upTo _ he.upTo _ hf.upTo
    simp only [UFl.asInt_toFl] at h
    exact (both_kernel_nnu ha.co hb.co hc.co hd.co he.co hf.co r).same h
  · have h := H.2.2.2.2.2.2.2.1 _ ha.upTo _ hb.upTo _ hc.upTo _ hd.upTo _ he.upTo _ hf.upTo
    simp only [UFl.asInt_toFl] at h
    exact (both_kernel_uue ha.co hb.co hc.co hd.co he.co hf.co r).same h
  · have h := H.2.2.2.2.2.2.2.2.1 _ ha.upTo _ hb.upTo _ hc.upTo _ hd.upTo _ he.upTo _ hf.upTo
    simp only [UFl.asInt_toFl] at h
    exact (both_kernel_uun ha.co hb.co hc.co hd.co he.co hf.co r).same h
  · have h := H.2.2.2.2.2.2.2.2.2 _ ha.upTo _ hb.upTo _ hc.upTo _ hd.upTo _ he.upTo _ hf.upTo
    simp only [UFl.asInt_toFl] at h
    exact (both_kernel_enu ha.co hb.co hc.co hd.co he.co hf.co r).same h

/-! ### Dipoles with integer moments -/

theorem both_const_aux (w : Fl A) (g : Fl A → Fl A) :
    Both ((UFl.flt w /ᵤ UFl.pi) >>= fun b : UFl A => pure (.flt (g b.toFl)))
      ((TFl.flt w /ᵢ TFl.pi) >>= fun b : TFl A => pure (.flt (g b.toFl))) := by
  obtain ⟨v, h1, h2⟩ := Both.div (x := UFl.flt w) (t := TFl.flt w) (y := UFl.pi) (s := TFl.pi) rfl rfl
  rw [h1, h2]
  cases v with
  | ok v => exact ⟨.ok (g v), rfl, rfl⟩
  | error e => exact ⟨.error e, rfl, rfl⟩

theorem both_const (f : Fl A → Fl A) :
    Both ((Unsigned.VACUUM_MAGNETIC_PERMEABILITY /ᵤ 4) >>= fun a : UFl A => (a /ᵤ UFl.pi) >>= fun b : UFl A => pure (.flt (f b.toFl)))
      ((Typed.VACUUM_MAGNETIC_PERMEABILITY /ᵢ 4) >>= fun a : TFl A => (a /ᵢ TFl.pi) >>= fun b : TFl A => pure (.flt (f b.toFl))) := by
  obtain ⟨z, h1, h2⟩ := Both.div (x := (Unsigned.VACUUM_MAGNETIC_PERMEABILITY : UFl A))
    (t := Typed.VACUUM_MAGNETIC_PERMEABILITY) (y := 4) (s := 4) rfl rfl
  rw [h1, h2]
  cases z with
  | error e => exact ⟨.error e, rfl, rfl⟩
  | ok w => exact both_const_aux w f

theorem div_isFlt {x y : UFl A} {t s : TFl A} {u : UFl A} (h : Both (x /ᵤ y) (t /ᵢ s)) (hu : (x /ᵤ y) = .ok u) :
    ∃ v, u = .flt v ∧ (t /ᵢ s) = .ok (.flt v) := by
  obtain ⟨z, h1, h2⟩ := h
  rw [h1] at hu
  cases z with
  | ok v => cases hu; exact ⟨v, rfl, h2⟩
  | error e => cases hu

theorem both_component {u v : Py (UFl A)} {t s : Py (TFl A)} (h : Both u t) (k : Both v s) :
    Both (do
        let result := (← u) - (← v)
        return (← (← Unsigned.VACUUM_MAGNETIC_PERMEABILITY /ᵤ 4) /ᵤ UFl.pi) * result)
      (do
        let result := (← t) - (← s)
        return (← (← Typed.VACUUM_MAGNETIC_PERMEABILITY /ᵢ 4) /ᵢ TFl.pi) * result) := by
  obtain ⟨x, rfl, rfl⟩ := h
  obtain ⟨y, rfl, rfl⟩ := k
  cases x with
  | error e => exact ⟨.error e, rfl, rfl⟩
  | ok x =>
    cases y with
    | error e => exact ⟨.error e, rfl, rfl⟩
    | ok y =>
      have := both_const (fun w : Fl A => w * (x - y))
      obtain ⟨z, h1, h2⟩ := this
      refine ⟨z, ?_, ?_⟩
      · rw [← h1]
        show ((Unsigned.VACUUM_MAGNETIC_PERMEABILITY /ᵤ 4) >>= fun a : UFl A => (a /ᵤ UFl.pi) >>= fun b : UFl A =>
          pure (b * .flt (x - y))) = _
        refine congrArg (_ >>= ·) (funext fun a => congrArg (_ >>= ·) (funext fun b => ?_))
        cases b <;> rfl
      · rw [← h2]
        show ((Typed.VACUUM_MAGNETIC_PERMEABILITY /ᵢ 4) >>= fun a : TFl A => (a /ᵢ TFl.pi) >>= fun b : TFl A =>
          pure (b * .flt (x - y))) = _
        refine congrArg (_ >>= ·) (funext fun a => congrArg (_ >>= ·) (funext fun b => ?_))
        cases b <;> rfl

section
variable {a b c d e f m₁ m₂ m₃ : UFl A} {a' b' c' d' e' f' k₁ k₂ k₃ : TFl A}

set_option linter.unusedVariables false in
theorem both_magnetic_e (ha : Co a a') (hb : Co b b') (hc : Co c c') (hd : Co d d') (he : Co e e') (hf : Co f f')
    (h₁ : Co m₁ k₁) (h₂ : Co m₂ k₂) (h₃ : Co m₃ k₃) (g₁ : m₁.toFl = k₁.toFl) (g₂ : m₂.toFl = k₂.toFl) (g₃ : m₃.toFl = k₃.toFl) :
    Both (Unsigned.dipole.magnetic_e a b c d e f m₁ m₂ m₃) (Typed.dipole.magnetic_e a' b' c' d' e' f' k₁ k₂ k₃) := by
  have hd' := ((h₁.mul (ha.sub hd)).add (h₂.mul (hb.sub he))).add (h₃.mul (hc.sub hf))
  have hr := ((((ha.sub hd).pow 2).add ((hb.sub he).pow 2)).add ((hc.sub hf).pow 2)).toFl
  have hs : UFl.sqrt ((a - d) ^ 2 + (b - e) ^ 2 + (c - f) ^ 2) = .flt (Fl.sqrt ((a' - d') ^ 2 + (b' - e') ^ 2 + (c' - f') ^ 2 : TFl A).toFl) := by
    rw [← hr]; rfl
  unfold Unsigned.dipole.magnetic_e Typed.dipole.magnetic_e
  dsimp only
  rw [hs]
  exact both_component (Both.div (((Si.lit 3).mul hd').mul (ha.sub hd)).toFl rfl) (Both.div g₁ rfl)

set_option linter.unusedVariables false in
theorem both_magnetic_n (ha : Co a a') (hb : Co b b') (hc : Co c c') (hd : Co d d') (he : Co e e') (hf : Co f f')
    (h₁ : Co m₁ k₁) (h₂ : Co m₂ k₂) (h₃ : Co m₃ k₃) (g₁ : m₁.toFl = k₁.toFl) (g₂ : m₂.toFl = k₂.toFl) (g₃ : m₃.toFl = k₃.toFl) :
    Both (Unsigned.dipole.magnetic_n a b c d e f m₁ m₂ m₃) (Typed.dipole.magnetic_n a' b' c' d' e' f' k₁ k₂ k₃) := by
  have hd' := ((h₁.mul (ha.sub hd)).add (h₂.mul (hb.sub he))).add (h₃.mul (hc.sub hf))
  have hr := ((((ha.sub hd).pow 2).add ((hb.sub he).pow 2)).add ((hc.sub hf).pow 2)).toFl
  have hs : UFl.sqrt ((a - d) ^ 2 + (b - e) ^ 2 + (c - f) ^ 2) = .flt (Fl.sqrt ((a' - d') ^ 2 + (b' - e') ^ 2 + (c' - f') ^ 2 : TFl A).toFl) := by
    rw [← hr]; rfl
  unfold Unsigned.dipole.magnetic_n Typed.dipole.magnetic_n
  dsimp only
  rw [hs]
  exact both_component (Both.div (((Si.lit 3).mul hd').mul (hb.sub he)).toFl rfl) (Both.div g₂ rfl)

set_option linter.unusedVariables false in
theorem both_magnetic_u (ha : Co a a') (hb : Co b b') (hc : Co c c') (hd : Co d d') (he : Co e e') (hf : Co f f')
    (h₁ : Co m₁ k₁) (h₂ : Co m₂ k₂) (h₃ : Co m₃ k₃) (g₁ : m₁.toFl = k₁.toFl) (g₂ : m₂.toFl = k₂.toFl) (g₃ : m₃.toFl = k₃.toFl) :
    Both (Unsigned.dipole.magnetic_u a b c d e f m₁ m₂ m₃) (Typed.dipole.magnetic_u a' b' c' d' e' f' k₁ k₂ k₃) := by
  have hd' := ((h₁.mul (ha.sub hd)).add (h₂.mul (hb.sub he))).add (h₃.mul (hc.sub hf))
  have hr := ((((ha.sub hd).pow 2).add ((hb.sub he).pow 2)).add ((hc.sub hf).pow 2)).toFl
  have hs : UFl.sqrt ((a - d) ^ 2 + (b - e) ^ 2 + (c - f) ^ 2) = .flt (Fl.sqrt ((a' - d') ^ 2 + (b' - e') ^ 2 + (c' - f') ^ 2 : TFl A).toFl) := by
    rw [← hr]; rfl
  unfold Unsigned.dipole.magnetic_u Typed.dipole.magnetic_u
  dsimp only
  rw [hs]
  exact both_component (Both.div (((Si.lit 3).mul hd').mul (hc.sub hf)).toFl rfl) (Both.div g₃ rfl)

end

/-- The same for the components of the field of a dipole with integer moment up to `M`. -/
theorem C148_dipole (hA : A.ExactInts L) (hL : L < 2 ^ 63) (hC : 12 * C ^ 2 ≤ L) (h15 : 15 ≤ L)
    (h36 : 36 * (M * C ^ 2) ≤ L) (hM : M ≤ L) {m₁ m₂ m₃ : UFl A} (h₁ : m₁.IntegerUpTo M) (h₂ : m₂.IntegerUpTo M)
    (h₃ : m₃.IntegerUpTo M) :
    OnUnsigned C SameCallU (fun a b c d e f => Unsigned.dipole.magnetic_e a b c d e f m₁ m₂ m₃)
        (fun a b c d e f => dipole.magnetic_e a b c d e f m₁.toFl m₂.toFl m₃.toFl)
    ∧ OnUnsigned C SameCallU (fun a b c d e f => Unsigned.dipole.magnetic_n a b c d e f m₁ m₂ m₃)
        (fun a b c d e f => dipole.magnetic_n a b c d e f m₁.toFl m₂.toFl m₃.toFl)
    ∧ OnUnsigned C SameCallU (fun a b c d e f => Unsigned.dipole.magnetic_u a b c d e f m₁ m₂ m₃)
        (fun a b c d e f => dipole.magnetic_u a b c d e f m₁.toFl m₂.toFl m₃.toFl) := by
  have H := C89_dipole (A := A) hA hL hC h15 h36 hM
  refine ⟨?_, ?_, ?_⟩ <;> intro a b c d e f ha hb hc hd he hf
  · have h := H.2.1 _ ha.upTo _ hb.upTo _ hc.upTo _ hd.upTo _ he.upTo _ hf.upTo _ h₁.upTo _ h₂.upTo _ h₃.upTo
    simp only [UFl.asInt_toFl] at h
    exact (both_magnetic_e ha.co hb.co hc.co hd.co he.co hf.co h₁.co h₂.co h₃.co (UFl.asInt_toFl _).symm
      (UFl.asInt_toFl _).symm (UFl.asInt_toFl _).symm).same h
  · have h := H.2.2.1 _ ha.upTo _ hb.upTo _ hc.upTo _ hd.upTo _ he.upTo _ hf.upTo _ h₁.upTo _ h₂.upTo _ h₃.upTo
    simp only [UFl.asInt_toFl] at h
    exact (both_magnetic_n ha.co hb.co hc.co hd.co he.co hf.co h₁.co h₂.co h₃.co (UFl.asInt_toFl _).symm
      (UFl.asInt_toFl _).symm (UFl.asInt_toFl _).symm).same h
  · have h := H.2.2.2 _ ha.upTo _ hb.upTo _ hc.upTo _ hd.upTo _ he.upTo _ hf.upTo _ h₁.upTo _ h₂.upTo _ h₃.upTo
    simp only [UFl.asInt_toFl] at h
    exact (both_magnetic_u ha.co hb.co hc.co hd.co he.co hf.co h₁.co h₂.co h₃.co (UFl.asInt_toFl _).symm
      (UFl.asInt_toFl _).symm (UFl.asInt_toFl _).symm).same h

/-! ### The acceleration -/

/-- If both are unsigned, the first is not larger than the second. -/
def UFl.Ordered (p q : UFl A) : Prop := ∀ m n : ℕ, p = .uint m → q = .uint n → m ≤ n

theorem wrapU_nonneg {n : ℕ} (h : n < 2 ^ 64) : wrapU n = n := by
  unfold wrapU
  omega

theorem neg_sub_ordered {p q : UFl A} (hp : p.IntegerUpTo C) (hq : q.IntegerUpTo C) (hC : 2 * C < 2 ^ 63) (h : p.Ordered q) :
    (-(p - q)).toFl = (-(p.asInt - q.asInt)).toFl := by
  rcases p with n | n | x
  · rcases q with m | m | y
    · rfl
    · rfl
    · exact hq.elim
  · rcases q with m | m | y
    · rfl
    · have hnm := h n m rfl rfl
      have hm : m ≤ C := hq
      show Fl.ofRaw (A.rnd ((wrapU (-(wrapU ((n : ℤ) - m) : ℤ)) : ℕ) : ℝ)) = Fl.ofRaw (A.rnd ((wrap64 (-(wrap64 ((n : ℤ) - m))) : ℤ) : ℝ))
      have e1 : wrapU (-(wrapU ((n : ℤ) - m) : ℤ)) = m - n := by
        unfold wrapU
        omega
      have e2 : wrap64 (-(wrap64 ((n : ℤ) - m))) = ((m - n : ℕ) : ℤ) := by
        have : wrap64 ((n : ℤ) - m) = n - m := by
          unfold wrap64
          rw [Int.bmod_eq_of_le] <;> omega
        rw [this]
        unfold wrap64
        rw [Int.bmod_eq_of_le] <;> omega
      rw [e1, e2, Int.cast_natCast]
    · exact hq.elim
  · exact hp.elim

theorem both_gravity_e {a b c d e f : UFl A} (ha : a.IntegerUpTo C) (hb : b.IntegerUpTo C) (hc : c.IntegerUpTo C)
    (hd : d.IntegerUpTo C) (he : e.IntegerUpTo C) (hf : f.IntegerUpTo C) (hC : 2 * C < 2 ^ 63) (h : a.Ordered d) (m : UFl A) :
    Both (Unsigned.point.gravity_e a b c d e f m)
      (Typed.point.gravity_e a.asInt b.asInt c.asInt d.asInt e.asInt f.asInt (.flt m.toFl)) := by
  obtain ⟨D, h1, h2⟩ := both_distance ha.co hb.co hc.co hd.co he.co hf.co
  unfold Unsigned.point.gravity_e Typed.point.gravity_e
  rw [h1, h2]
  refine Both.scale ?_ _ m
  exact Both.bind_pure (Both.div (neg_sub_ordered ha hd hC h) rfl)

theorem both_gravity_n {a b c d e f : UFl A} (ha : a.IntegerUpTo C) (hb : b.IntegerUpTo C) (hc : c.IntegerUpTo C)
    (hd : d.IntegerUpTo C) (he : e.IntegerUpTo C) (hf : f.IntegerUpTo C) (hC : 2 * C < 2 ^ 63) (h : b.Ordered e) (m : UFl A) :
    Both (Unsigned.point.gravity_n a b c d e f m)
      (Typed.point.gravity_n a.asInt b.asInt c.asInt d.asInt e.asInt f.asInt (.flt m.toFl)) := by
  obtain ⟨D, h1, h2⟩ := both_distance ha.co hb.co hc.co hd.co he.co hf.co
  unfold Unsigned.point.gravity_n Typed.point.gravity_n
  rw [h1, h2]
  refine Both.scale ?_ _ m
  exact Both.bind_pure (Both.div (neg_sub_ordered hb he hC h) rfl)

theorem both_gravity_u {a b c d e f : UFl A} (ha : a.IntegerUpTo C) (hb : b.IntegerUpTo C) (hc : c.IntegerUpTo C)
    (hd : d.IntegerUpTo C) (he : e.IntegerUpTo C) (hf : f.IntegerUpTo C) (hC : 2 * C < 2 ^ 63) (h : c.Ordered f) (m : UFl A) :
    Both (Unsigned.point.gravity_u a b c d e f m)
      (Typed.point.gravity_u a.asInt b.asInt c.asInt d.asInt e.asInt f.asInt (.flt m.toFl)) := by
  obtain ⟨D, h1, h2⟩ := both_distance ha.co hb.co hc.co hd.co he.co hf.co
  unfold Unsigned.point.gravity_u Typed.point.gravity_u
  rw [h1, h2]
  refine Both.scale ?_ _ m
  exact Both.bind_pure (Both.div (neg_sub_ordered hc hf hC h) rfl)

/-- The components of the acceleration are right if the observation point is not east of (north of, above) the source or one of the two
coordinates is signed. -/
theorem C148_acceleration (hA : A.ExactInts L) (hL : L < 2 ^ 63) (hC : 12 * C ^ 2 ≤ L) (h15 : 15 ≤ L) (m : UFl A)
    {a b c d e f : UFl A} (ha : a.IntegerUpTo C) (hb : b.IntegerUpTo C) (hc : c.IntegerUpTo C)
    (hd : d.IntegerUpTo C) (he : e.IntegerUpTo C) (hf : f.IntegerUpTo C) :
    (a.Ordered d → SameCallU (Unsigned.point.gravity_e a b c d e f m)
      (point.gravity_e a.toFl b.toFl c.toFl d.toFl e.toFl f.toFl m.toFl))
    ∧ (b.Ordered e → SameCallU (Unsigned.point.gravity_n a b c d e f m)
      (point.gravity_n a.toFl b.toFl c.toFl d.toFl e.toFl f.toFl m.toFl))
    ∧ (c.Ordered f → SameCallU (Unsigned.point.gravity_u a b c d e f m)
      (point.gravity_u a.toFl b.toFl c.toFl d.toFl e.toFl f.toFl m.toFl)) := by
  have H := C89_point_gravity hA hL hC h15
  have h2 : 2 * C < 2 ^ 63 := lt_of_le_of_lt (two_mul_le_of_sq hC) hL
  refine ⟨fun ho => ?_, fun ho => ?_, fun ho => ?_⟩
  · have h := H.2.1 _ ha.upTo _ hb.upTo _ hc.upTo _ hd.upTo _ he.upTo _ hf.upTo (.flt m.toFl) trivial
    simp only [UFl.asInt_toFl] at h
    exact (both_gravity_e ha hb hc hd he hf h2 ho m).same h
  · have h := H.2.2.1 _ ha.upTo _ hb.upTo _ hc.upTo _ hd.upTo _ he.upTo _ hf.upTo (.flt m.toFl) trivial
    simp only [UFl.asInt_toFl] at h
    exact (both_gravity_n ha hb hc hd he hf h2 ho m).same h
  · have h := H.2.2.2.1 _ ha.upTo _ hb.upTo _ hc.upTo _ hd.upTo _ he.upTo _ hf.upTo (.flt m.toFl) trivial
    simp only [UFl.asInt_toFl] at h
    exact (both_gravity_u ha hb hc hd he hf h2 ho m).same h

theorem neg_sub_wrong {p q : ℕ} (h : q < p) (hp : p < 2 ^ 64) :
    -((.uint p : UFl A) - .uint q) = .uint (2 ^ 64 - (p - q)) := by
  show UFl.uint (wrapU (-(wrapU ((p : ℤ) - q) : ℤ))) = _
  congr 1
  unfold wrapU
  omega

/-- Otherwise they are wrong: with unsigned coordinates the numerator is `2^64` too large. -/
theorem C148_wrong {p q : ℕ} (h : q < p) (hp : p < 2 ^ 64) (x y z w : UFl A) (r : Fl A) :
    Unsigned.point.kernel_e (.uint p) x y (.uint q) z w (.flt r)
        = (Fl.ofRaw (A.rnd ((2 ^ 64 - (p - q) : ℕ) : ℝ)) /. r ^ 3).map UFl.flt
    ∧ Unsigned.point.kernel_n x (.uint p) y z (.uint q) w (.flt r)
        = (Fl.ofRaw (A.rnd ((2 ^ 64 - (p - q) : ℕ) : ℝ)) /. r ^ 3).map UFl.flt
    ∧ Unsigned.point.kernel_u x y (.uint p) z w (.uint q) (.flt r)
        = (Fl.ofRaw (A.rnd ((2 ^ 64 - (p - q) : ℕ) : ℝ)) /. r ^ 3).map UFl.flt := by
  have k := neg_sub_wrong (A := A) h hp
  refine ⟨?_, ?_, ?_⟩
  · unfold Unsigned.point.kernel_e
    rw [k]
    rfl
  · unfold Unsigned.point.kernel_n
    rw [k]
    rfl
  · unfold Unsigned.point.kernel_u
    rw [k]
    rfl

/-- The gravity of a mass `m`, `k` metres below the observation point, all coordinates unsigned integers: it points away from the mass
and is more than `10^18 / k` times too strong. -/
theorem C148_above {k : ℕ} (hk : 0 < k) (hk' : k < 2 ^ 31) (m : ℝ) :
    point.gravity_u (A := Exact) 0 0 (Fl.fin k) 0 0 0 (Fl.fin m) = .ok (Fl.fin (-(6.6743e-11 * m) / k ^ 2))
    ∧ Unsigned.point.gravity_u (A := Exact) (.uint 0) (.uint 0) (.uint k) (.uint 0) (.uint 0) (.uint 0) (.flt (Fl.fin m))
      = .ok (.flt (Fl.fin (6.6743e-11 * m * (2 ^ 64 - k) / k ^ 3)))
    ∧ (10 : ℝ) ^ 18 / k * |-(6.6743e-11 * m) / k ^ 2| ≤ |6.6743e-11 * m * (2 ^ 64 - k) / k ^ 3| := by
  have hkr : (0 : ℝ) < k := by exact_mod_cast hk
  have hk3 : (k : ℝ) ^ 3 ≠ 0 := by positivity
  refine ⟨?_, ?_, ?_⟩
  · have hd : utils.distance_cartesian (A := Exact) 0 0 (Fl.fin k) 0 0 0 = .ok (Fl.fin k) := by
      show Except.ok (Fl.sqrt (Fl.fin (((((0 : ℕ) : ℝ) + -((0 : ℕ) : ℝ)) ^ 2 + (((0 : ℕ) : ℝ) + -((0 : ℕ) : ℝ)) ^ 2 + ((k : ℝ) + -((0 : ℕ) : ℝ)) ^ 2)))) = _
      rw [show ((((0 : ℕ) : ℝ) + -((0 : ℕ) : ℝ)) ^ 2 + (((0 : ℕ) : ℝ) + -((0 : ℕ) : ℝ)) ^ 2 + ((k : ℝ) + -((0 : ℕ) : ℝ)) ^ 2) = (k : ℝ) ^ 2 by
        push_cast; ring]
      show Except.ok (if (k : ℝ) ^ 2 < 0 then Fl.nan else Fl.fin (Real.sqrt ((k : ℝ) ^ 2))) = _
      rw [if_neg (not_lt.2 (by positivity)), Real.sqrt_sq hkr.le]
    unfold point.gravity_u
    rw [hd]
    have hkk : point.kernel_u (A := Exact) 0 0 (Fl.fin k) 0 0 0 (Fl.fin k) = .ok (Fl.fin (-(k : ℝ) / k ^ 3)) := by
      show (if (k : ℝ) ^ 3 = 0 then _ else Except.ok (Fl.fin (-((k : ℝ) + -((0 : ℕ) : ℝ)) / (k : ℝ) ^ 3)) : Py (Fl Exact)) = _
      rw [if_neg hk3]
      push_cast
      rw [neg_zero, add_zero]
    show (point.kernel_u (A := Exact) 0 0 (Fl.fin k) 0 0 0 (Fl.fin k) >>= _) = _
    rw [hkk]
    refine congrArg (fun x : ℝ => (Except.ok (Fl.fin x) : Py (Fl Exact))) ?_
    field_simp
  · have hd : Unsigned.utils.distance_cartesian (A := Exact) (.uint 0) (.uint 0) (.uint k) (.uint 0) (.uint 0) (.uint 0) = .ok (.flt (Fl.fin k)) := by
      have e1 : ((.uint 0 : UFl Exact) - .uint 0) = .uint 0 := rfl
      have e2 : ((.uint k : UFl Exact) - .uint 0) = .uint k := by
        show UFl.uint (wrapU ((k : ℤ) - ((0 : ℕ) : ℤ))) = _
        congr 1
        unfold wrapU
        omega
      have hkk : ((k : ℤ)) ^ 2 < 2 ^ 62 := by
        have h1 : (k : ℤ) < 2 ^ 31 := by exact_mod_cast hk'
        have h0 : (0 : ℤ) < k := by exact_mod_cast hk
        nlinarith
      have e3 : ((.uint k : UFl Exact) ^ 2) = .int ((k : ℤ) ^ 2) := by
        show UFl.int (wrap64 ((k : ℤ) ^ 2)) = _
        refine congrArg UFl.int ?_
        unfold wrap64
        rw [Int.bmod_eq_of_le]
        · have := sq_nonneg (k : ℤ); norm_num; omega
        · norm_num; omega
      have e4 : ((.uint 0 : UFl Exact) ^ 2) = .int 0 := rfl
      have e5 : ((.int 0 : UFl Exact) + .int 0) = .int 0 := rfl
      have e6 : ((.int 0 : UFl Exact) + .int ((k : ℤ) ^ 2)) = .int ((k : ℤ) ^ 2) := by
        show UFl.int (wrap64 (0 + (k : ℤ) ^ 2)) = _
        rw [zero_add]
        exact e3
      show Except.ok (UFl.sqrt (_ ^ 2 + _ ^ 2 + _ ^ 2)) = _
      rw [e1, e2, e3, e4, e5, e6]
      show Except.ok (UFl.flt (if (((k : ℤ) ^ 2 : ℤ) : ℝ) < 0 then Fl.nan else Fl.fin (Real.sqrt (((k : ℤ) ^ 2 : ℤ) : ℝ)))) = _
      push_cast
      rw [if_neg (not_lt.2 (by positivity)), Real.sqrt_sq hkr.le]
    unfold Unsigned.point.gravity_u
    rw [hd]
    have hw := (C148_wrong (A := Exact) hk (hk'.trans (by norm_num)) (.uint 0) (.uint 0) (.uint 0) (.uint 0) (Fl.fin k)).2.2
    show (Unsigned.point.kernel_u (A := Exact) (.uint 0) (.uint 0) (.uint k) (.uint 0) (.uint 0) (.uint 0) (.flt (Fl.fin k)) >>= _) = _
    rw [hw]
    have hq : ((Fl.ofRaw (Exact.rnd ((2 ^ 64 - (k - 0) : ℕ) : ℝ)) : Fl Exact) /. (Fl.fin (k : ℝ)) ^ 3)
        = .ok (Fl.fin ((2 ^ 64 - (k : ℝ)) / k ^ 3)) := by
      show (if (k : ℝ) ^ 3 = 0 then _ else Except.ok (Fl.fin (((2 ^ 64 - (k - 0) : ℕ) : ℝ) / (k : ℝ) ^ 3)) : Py (Fl Exact)) = _
      rw [if_neg hk3, Nat.sub_zero, Nat.cast_sub (by omega)]
      norm_num
    rw [hq]
    refine congrArg (fun x : ℝ => (Except.ok (.flt (Fl.fin x)) : Py (UFl Exact))) ?_
    ring
  · have hk2 : (k : ℝ) < 2 ^ 31 := by exact_mod_cast hk'
    have hp : (0 : ℝ) < 2 ^ 64 - k := by linarith
    rw [abs_div, abs_div, abs_neg, abs_mul (6.6743e-11 * m), abs_of_pos hp, abs_of_pos (by positivity : (0 : ℝ) < (k : ℝ) ^ 2),
      abs_of_pos (by positivity : (0 : ℝ) < (k : ℝ) ^ 3)]
    have e : (10 : ℝ) ^ 18 / k * (|6.6743e-11 * m| / k ^ 2) = |6.6743e-11 * m| * 10 ^ 18 / k ^ 3 := by field_simp
    rw [e]
    gcongr
    linarith

/-! ### Double precision -/

/-- In double precision with Numba's powers, integer coordinates of any kind up to 2^24 m. -/
theorem C148_double (m : UFl Numba64) :
    OnUnsigned (2 ^ 24) SameCallU (fun a b c d e f => Unsigned.point.gravity_pot a b c d e f m)
        (fun a b c d e f => point.gravity_pot a b c d e f m.toFl)
    ∧ OnUnsigned (2 ^ 24) SameCallU (fun a b c d e f => Unsigned.point.gravity_uu a b c d e f m)
        (fun a b c d e f => point.gravity_uu a b c d e f m.toFl) := by
  have h := C148_gravity (C := 2 ^ 24) C90_laws.2.2.2.2.1 (by norm_num) (by norm_num) (by norm_num) m
  exact ⟨h.1, h.2.2.2.1⟩

/-- The observation point at (5, 2, 40), unsigned, and a source at (1, 7, -3) m: differences of both signs occur. -/
example : SameCallU (Unsigned.point.gravity_uu (A := Numba64) (.uint 5) (.uint 2) (.uint 40) (.uint 1) (.uint 7) (.int (-3)) (.flt 1))
    (point.gravity_uu (UFl.uint 5).toFl (UFl.uint 2).toFl (UFl.uint 40).toFl (UFl.uint 1).toFl (UFl.uint 7).toFl (UFl.int (-3)).toFl 1) :=
  (C148_double (.flt 1)).2 _ _ _ _ _ _ (by norm_num [UFl.IntegerUpTo]) (by norm_num [UFl.IntegerUpTo])
    (by norm_num [UFl.IntegerUpTo]) (by norm_num [UFl.IntegerUpTo]) (by norm_num [UFl.IntegerUpTo]) (by norm_num [UFl.IntegerUpTo])

/-- `C148_acceleration`: along northing the point is not north of the source, along the upward axis one coordinate is signed. -/
example : SameCallU (Unsigned.point.gravity_u (A := Numba64) (.uint 5) (.uint 2) (.uint 40) (.uint 1) (.uint 7) (.int (-3)) (.flt 1))
    (point.gravity_u (UFl.uint 5).toFl (UFl.uint 2).toFl (UFl.uint 40).toFl (UFl.uint 1).toFl (UFl.uint 7).toFl (UFl.int (-3)).toFl 1)
    ∧ SameCallU (Unsigned.point.gravity_n (A := Numba64) (.uint 5) (.uint 2) (.uint 40) (.uint 1) (.uint 7) (.int (-3)) (.flt 1))
    (point.gravity_n (UFl.uint 5).toFl (UFl.uint 2).toFl (UFl.uint 40).toFl (UFl.uint 1).toFl (UFl.uint 7).toFl (UFl.int (-3)).toFl 1) := by
  have h := C148_acceleration (A := Numba64) (C := 2 ^ 24) (a := .uint 5) (b := .uint 2) (c := .uint 40) (d := .uint 1) (e := .uint 7)
    (f := .int (-3)) C90_laws.2.2.2.2.1 (by norm_num) (by norm_num) (by norm_num) (.flt 1)
    (by norm_num [UFl.IntegerUpTo]) (by norm_num [UFl.IntegerUpTo])
    (by norm_num [UFl.IntegerUpTo]) (by norm_num [UFl.IntegerUpTo]) (by norm_num [UFl.IntegerUpTo]) (by norm_num [UFl.IntegerUpTo])
  refine ⟨h.2.2 ?_, h.2.1 ?_⟩
  · intro m n _ h2
    cases h2
  · intro m n h1 h2
    cases h1
    cases h2
    norm_num

/-- `C148_third`, `C148_dipole` and `C148_distance`: the hypotheses with bounds of some size. -/
example : 120 * (2 ^ 15) ^ 3 ≤ 2 ^ 53 ∧ 12 * (2 ^ 14) ^ 2 ≤ 2 ^ 53 ∧ 36 * (2 ^ 18 * (2 ^ 14) ^ 2) ≤ 2 ^ 53 ∧ 2 ^ 18 ≤ 2 ^ 53
    ∧ 2 ^ 53 < 2 ^ 63 := by norm_num

end Choclo
