import Verif.Lemmas.Weights
/-! Nothing is excluded, if nothing else is said. -/
namespace Verif

@[instance_reducible] instance (priority := low) noLimits : Limits := .nothing

end Verif
