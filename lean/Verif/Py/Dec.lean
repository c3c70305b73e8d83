/-! Decidable equality of results, used to evaluate closed examples. -/
namespace Verif.Py
deriving instance DecidableEq for Except
end Verif.Py
