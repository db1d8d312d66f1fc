import Verif.Spec.Results
/-
Specification side of C06-C08: what a validity verdict must say about a collection of lists.
-/
namespace Inspector.Spec

/-- The verdict (`valid`, `nb`, `text`) about the lists `ls`: valid exactly when every list is
empty; as many invalidities as non-empty lists; the text is made of the texts of the non-empty
lists, each once, in some order, and of nothing else. -/
def Verdict (valid : Bool) (nb : UInt32) (text : String) (ls : List Report) : Prop :=
  (∀ l ∈ ls, l.count < 2 ^ 32) →
    (valid = true ↔ ∀ l ∈ ls, l.count = 0) ∧
    ((nonEmpty ls).length < 2 ^ 32 → nb.toNat = (nonEmpty ls).length) ∧
    ∃ parts : List String, parts.Perm ((nonEmpty ls).map Report.text) ∧ text = String.join parts

/-- Same, the text following the order of the lists. -/
def VerdictInOrder (valid : Bool) (nb : UInt32) (text : String) (ls : List Report) : Prop :=
  (∀ l ∈ ls, l.count < 2 ^ 32) →
    (valid = true ↔ ∀ l ∈ ls, l.count = 0) ∧
    ((nonEmpty ls).length < 2 ^ 32 → nb.toNat = (nonEmpty ls).length) ∧
    text = String.join ((nonEmpty ls).map Report.text)

end Inspector.Spec
