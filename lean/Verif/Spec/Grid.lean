import Verif.Spec.Integral

/-! # Subdivision of a prism by a grid of planes (specification) -/

namespace Choclo

/-- A grid: the positions of the planes perpendicular to the three axes. The planes numbered `0` and
`nx` (`ny`, `nz`) bound the prism, the others cut it. -/
structure Grid where
  x : ℕ → ℝ
  y : ℕ → ℝ
  z : ℕ → ℝ
  nx : ℕ
  ny : ℕ
  nz : ℕ

namespace Grid

/-- The prism that is subdivided. -/
def whole (g : Grid) : Box := ⟨g.x 0, g.x g.nx, g.y 0, g.y g.ny, g.z 0, g.z g.nz⟩

/-- The cell number `(i, j, k)`. -/
def cell (g : Grid) (i j k : ℕ) : Box :=
  ⟨g.x i, g.x (i + 1), g.y j, g.y (j + 1), g.z k, g.z (k + 1)⟩

/-- Planes in order, at least one cell in each direction. -/
def Valid (g : Grid) : Prop :=
  Monotone g.x ∧ Monotone g.y ∧ Monotone g.z ∧ 0 < g.nx ∧ 0 < g.ny ∧ 0 < g.nz

/-- The point is on none of the planes that cut the prism. -/
def OffPlanes (g : Grid) (p : Pt) : Prop :=
  (∀ i, 0 < i → i < g.nx → p.e ≠ g.x i) ∧ (∀ j, 0 < j → j < g.ny → p.n ≠ g.y j) ∧
    (∀ k, 0 < k → k < g.nz → p.u ≠ g.z k)

/-- The triples of indices of the cells. -/
def indices (g : Grid) : Finset (ℕ × ℕ × ℕ) :=
  Finset.range g.nx ×ˢ Finset.range g.ny ×ˢ Finset.range g.nz

end Grid

end Choclo
