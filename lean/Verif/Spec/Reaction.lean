import Verif.Model.Reaction
/-! Specification of charge and mass balances (C53). -/
namespace X4

/-- charge of a product; channel names carry none -/
def Product.charge (p : Product) : Int := match p.getZ with | .ok z => z | .error _ => 0
/-- mass number of a product; channel names carry none -/
def Product.mass (p : Product) : Int := match p.getA with | .ok a => a | .error _ => 0
/-- the product is not a chemical compound -/
def Product.noCompound : Product → Prop
  | .part (.compound ..) => False
  | _ => True

/-- The charge of target and projectile is the one of products and residual, and
likewise for the mass number. -/
def Balanced (targ proj : Particle) (products : List Product) (residual : Product) : Prop :=
  Product.charge (.part targ) + Product.charge (.part proj) = (products.map Product.charge).sum + residual.charge ∧
  Product.mass (.part targ) + Product.mass (.part proj) = (products.map Product.mass).sum + residual.mass

end X4
