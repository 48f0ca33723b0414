import Verif.Proof.Order

/-!
# Scaling maps between curves `y² = x³ + b`

`(x, y) ↦ (c·x, d·y)` with `c³ = d²` maps `y² = x³ + b` to `y² = x³ + b·d²`, additively.  With
`c = u², d = u³` this is the isomorphism behind the "effective affine" technique of
ecmult_impl.h, with `c = β, d = 1` the secp256k1 endomorphism.
-/

namespace Secp
open WeierstrassCurve Model FeOps

variable {F : Type} [Field F] [DecidableEq F]

/-- Conditions for `(x, y) ↦ (c·x, d·y)` to map the curve `b` to the curve `b'`. -/
structure Scaling (b b' c d : F) : Prop where
  ntt : NoTwoTorsion b
  d_ne : d ≠ 0
  cube : c ^ 3 = d ^ 2
  b_eq : b' = b * d ^ 2

namespace Scaling
variable {b b' c d : F}

theorem c_ne (h : Scaling b b' c d) : c ≠ 0 := by
  intro hc
  have := h.cube
  rw [hc, zero_pow (by norm_num), eq_comm, pow_eq_zero_iff (by norm_num)] at this
  exact h.d_ne this

theorem ntt' (h : Scaling b b' c d) : NoTwoTorsion b' := by
  refine ⟨h.ntt.two_ne, fun x hx => ?_⟩
  have hc := h.c_ne
  apply h.ntt.no_root (x / c)
  have h1 := h.cube
  have h2 := h.b_eq
  rw [div_pow, h1, div_add' _ _ _ (pow_ne_zero 2 h.d_ne), ← h2, hx, zero_div]

theorem eqn (h : Scaling b b' c d) {x y : F} (e : y ^ 2 = x ^ 3 + b) :
    (d * y) ^ 2 = (c * x) ^ 3 + b' := by
  rw [h.b_eq, mul_pow, mul_pow, h.cube, e]; ring

/-- The map on points. -/
def map (h : Scaling b b' c d) : (curve b).Point → (curve b').Point
  | .zero => 0
  | .some x y hn => .some (c * x) (d * y) (h.ntt'.nonsingular (h.eqn (nonsingular_eq hn)))

theorem map_zero (h : Scaling b b' c d) : h.map 0 = 0 := rfl

theorem map_add (h : Scaling b b' c d) (P Q : (curve b).Point) :
    h.map (P + Q) = h.map P + h.map Q := by
  have hc := h.c_ne
  have hd := h.d_ne
  have h2 := h.ntt.two_ne
  cases P with
  | zero => change h.map (0 + Q) = 0 + h.map Q; rw [zero_add, zero_add]
  | some x₁ y₁ h₁ => cases Q with
    | zero => change h.map (_ + 0) = _ + 0; rw [add_zero, add_zero]
    | some x₂ y₂ h₂ =>
      by_cases hx : x₁ = x₂
      · subst hx
        rcases y_eq_or_neg h₁ h₂ with hy | hy
        · subst hy
          obtain ⟨h₃, e⟩ := add_some_self h.ntt (h₁ := h₁) rfl rfl
          have hy0 := h.ntt.y_ne (nonsingular_eq h₁)
          rw [e]
          simp only [map]
          have hcc := h.cube
          have key : 3 * (c * x₁) ^ 2 / (2 * (d * y₁)) = c ^ 2 / d * (3 * x₁ ^ 2 / (2 * y₁)) := by
            field_simp
          have hk2 : (c ^ 2 / d) ^ 2 = c := by
            rw [div_pow, div_eq_iff (pow_ne_zero 2 hd), ← hcc]; ring
          have hk1 : c ^ 2 / d * c = d := by
            rw [div_mul_eq_mul_div, div_eq_iff hd]; linear_combination hcc
          obtain ⟨h₄, e'⟩ := add_some_self h.ntt' (b := b')
            (h₁ := h.ntt'.nonsingular (h.eqn (nonsingular_eq h₁)))
            (x₃ := c * ((3 * x₁ ^ 2 / (2 * y₁)) ^ 2 - x₁ - x₁))
            (y₃ := d * (-(3 * x₁ ^ 2 / (2 * y₁) * ((3 * x₁ ^ 2 / (2 * y₁)) ^ 2 - x₁ - x₁ - x₁) + y₁)))
            (by rw [key, mul_pow, hk2]; ring)
            (by rw [key]; linear_combination
                  (3 * x₁ ^ 2 / (2 * y₁) * ((3 * x₁ ^ 2 / (2 * y₁)) ^ 2 - x₁ - x₁ - x₁)) * hk1)
          rw [e']
        · rw [add_some_neg hy, map_zero]
          simp only [map]
          rw [add_some_neg (by rw [hy]; ring)]
      · obtain ⟨h₃, e⟩ := add_some_X_ne (h₁ := h₁) (h₂ := h₂) hx rfl rfl
        rw [e]
        simp only [map]
        have hcc := h.cube
        have hx0 : x₁ - x₂ ≠ 0 := sub_ne_zero.2 hx
        have hx' : c * x₁ ≠ c * x₂ := fun e => hx (mul_left_cancel₀ hc e)
        have hx0' : c * x₁ - c * x₂ ≠ 0 := sub_ne_zero.2 hx'
        have key : (d * y₁ - d * y₂) / (c * x₁ - c * x₂) = d / c * ((y₁ - y₂) / (x₁ - x₂)) := by
          rw [← mul_sub, ← mul_sub, mul_div_mul_comm]
        have hk2 : (d / c) ^ 2 = c := by
          rw [div_pow, div_eq_iff (pow_ne_zero 2 hc), ← hcc]; ring
        have hk1 : d / c * c = d := div_mul_cancel₀ d hc
        obtain ⟨h₄, e'⟩ := add_some_X_ne (b := b')
            (h₁ := h.ntt'.nonsingular (h.eqn (nonsingular_eq h₁)))
            (h₂ := h.ntt'.nonsingular (h.eqn (nonsingular_eq h₂))) hx'
            (x₃ := c * (((y₁ - y₂) / (x₁ - x₂)) ^ 2 - x₁ - x₂))
            (y₃ := d * (-((y₁ - y₂) / (x₁ - x₂) * (((y₁ - y₂) / (x₁ - x₂)) ^ 2 - x₁ - x₂ - x₁) + y₁)))
            (by rw [key, mul_pow, hk2]; ring)
            (by rw [key]; linear_combination
                  (((y₁ - y₂) / (x₁ - x₂)) * (((y₁ - y₂) / (x₁ - x₂)) ^ 2 - x₁ - x₂ - x₁)) * hk1)
        rw [e']

/-- The map as a homomorphism of groups. -/
def hom (h : Scaling b b' c d) : (curve b).Point →+ (curve b').Point where
  toFun := h.map
  map_zero' := h.map_zero
  map_add' := h.map_add

theorem hom_some (h : Scaling b b' c d) {x y : F} (hn : (curve b).Nonsingular x y) :
    h.hom (.some x y hn) =
      .some (c * x) (d * y) (h.ntt'.nonsingular (h.eqn (nonsingular_eq hn))) := rfl

theorem hom_eq_zero (h : Scaling b b' c d) {P : (curve b).Point} : h.hom P = 0 ↔ P = 0 := by
  constructor
  · intro e
    cases P with
    | zero => rfl
    | some x y hn => rw [hom_some] at e; exact absurd e (Affine.Point.some_ne_zero _)
  · rintro rfl; exact h.hom.map_zero

theorem hom_injective (h : Scaling b b' c d) : Function.Injective h.hom := by
  rw [injective_iff_map_eq_zero]
  intro P hP
  exact h.hom_eq_zero.1 hP

end Scaling

/-! ### The effective-affine isomorphism -/

theorem isoScaling {b u : F} (hb : NoTwoTorsion b) (hu : u ≠ 0) :
    Scaling b (b * u ^ 6) (u ^ 2) (u ^ 3) :=
  ⟨hb, pow_ne_zero 3 hu, by ring, by ring⟩

/-- `(x, y) ↦ (x·u², y·u³)`. -/
def iso {b : F} (hb : NoTwoTorsion b) {u : F} (hu : u ≠ 0) :
    (curve b).Point →+ (curve (b * u ^ 6)).Point := (isoScaling hb hu).hom

theorem iso_eq_zero {b : F} (hb : NoTwoTorsion b) {u : F} (hu : u ≠ 0) {P : (curve b).Point} :
    iso hb hu P = 0 ↔ P = 0 := (isoScaling hb hu).hom_eq_zero

theorem iso_ntt {b : F} (hb : NoTwoTorsion b) {u : F} (hu : u ≠ 0) : NoTwoTorsion (b * u ^ 6) :=
  (isoScaling hb hu).ntt'

/-- A Jacobian structure on the isomorphic curve stands for `φ_u(P)` iff the structure with `z`
multiplied by `u` stands for `P`. -/
theorem iso_rep {b : F} (hb : NoTwoTorsion b) {u : F} (hu : u ≠ 0) {g : Gej F}
    {P : (curve b).Point} :
    GejRep (b * u ^ 6) g (iso hb hu P) ↔ GejRep b { g with z := g.z * u } P := by
  constructor
  · intro h
    cases hi : g.infinity
    · obtain ⟨x, y, hn, hz, hx, hy, e⟩ := h.elim hi
      cases P with
      | zero => exact absurd (h.inf_iff.2 (iso hb hu).map_zero) (by simp [hi])
      | some x₁ y₁ hn₁ =>
        rw [iso, Scaling.hom_some, Affine.Point.some.injEq] at e
        obtain ⟨e1, e2⟩ := e
        apply GejRep.intro (by rfl) (mul_ne_zero hz hu)
        · simp only; rw [hx, ← e1]; ring
        · simp only; rw [hy, ← e2]; ring
    · rw [(iso_eq_zero hb hu).1 (h.inf_iff.1 hi)]
      exact GejRep.of_inf rfl
  · intro h
    cases hi : g.infinity
    · obtain ⟨x, y, hn, hz, hx, hy, rfl⟩ := h.elim (by exact hi)
      simp only at hz hx hy
      rw [iso, Scaling.hom_some]
      apply GejRep.intro hi (left_ne_zero_of_mul hz)
      · rw [hx]; ring
      · rw [hy]; ring
    · have : P = 0 := h.inf_iff.1 hi
      rw [this, map_zero]
      exact GejRep.of_inf hi

/-- The same for affine structures. -/
theorem iso_rep_ge {b : F} (hb : NoTwoTorsion b) {u : F} (hu : u ≠ 0) {g : Ge F}
    {P : (curve b).Point} :
    GeRep (b * u ^ 6) g (iso hb hu P) ↔ GejRep b ⟨g.x, g.y, u, g.infinity⟩ P := by
  have h1 : GeRep (b * u ^ 6) g (iso hb hu P) ↔
      GejRep (b * u ^ 6) ⟨g.x, g.y, 1, g.infinity⟩ (iso hb hu P) := by
    unfold GeRep GejRep
    simp only
    split
    · rfl
    · constructor
      · rintro ⟨h, e⟩
        exact ⟨one_ne_zero, by simpa using h, by rw [e]; exact some_eq_some (by simp) (by simp)⟩
      · rintro ⟨_, h, e⟩
        exact ⟨by simpa using h, by rw [e]; exact some_eq_some (by simp) (by simp)⟩
  rw [h1, iso_rep]
  simp

/-- A Jacobian structure with `z` known is an affine structure on the isomorphic curve. -/
theorem rep_iff_iso {b : F} (hb : NoTwoTorsion b) {a : Gej F} (hz : a.z ≠ 0)
    {P : (curve b).Point} :
    GejRep b a P ↔ GeRep (b * a.z ^ 6) ⟨a.x, a.y, a.infinity⟩ (iso hb hz P) := by
  rw [iso_rep_ge]

end Secp
