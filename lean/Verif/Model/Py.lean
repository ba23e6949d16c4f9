/-
Common vocabulary of the model: python exceptions as values.
-/
namespace Ditto

/-- Python exceptions that the modelled code can raise. The message is not modelled. -/
inductive PyErr
  | valueError | keyError | typeError | attributeError | indexError | nameError
  | zeroDivisionError | unboundLocalError | recursionError | notImplementedError
  | linAlgError | networkXError | nodeNotFound | assertionError | genericException
  | badOptionUsage | stopIteration | traitError | networkXNoPath | networkXPointlessConcept
  | fileNotFoundError
  deriving DecidableEq, Repr

abbrev Py (α : Type) := Except PyErr α

/-- `str.lower()`. Simplification: `Char.toLower` only maps ASCII letters. -/
def pyLower (s : String) : String := String.ofList (s.toList.map Char.toLower)

end Ditto
