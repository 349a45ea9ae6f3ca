import Verif.Spec.LasmSource

/-!
# LASM sources with labels

A label is alone on its line and stands for the address of what follows. A label that begins with a dot is local to the
last label that does not, and several of them may share a name.
-/

namespace Lrvm.Spec

/-- The full name of a label that is written after a global label. -/
def qualified (scope name : List Char) : List Char :=
  match name with
  | '.' :: _ => scope ++ name
  | _ => name

/-- What the labels written after a global label stand for, in a table of labels. -/
def namesIn (labels : List (List Char × Nat)) (scope : List Char) : Names :=
  fun name address => (qualified scope name, address) ∈ labels

/-- `Listing labels scope address lines words defined`: the lines, written after the global label `scope` and placed at
`address`, stand for the words, when labels mean what the table `labels` says; the labels that they define are `defined`,
with their addresses. -/
inductive Listing (labels : List (List Char × Nat)) : (scope : List Char) → (address : Nat) → List (List Char) →
    List ProgramWord → List (List Char × Nat) → Prop
  | nil {scope address} : Listing labels scope address [] [] []
  | line {scope address t ws lines words defined} : SourceLine (namesIn labels scope) t ws →
      Listing labels scope (address + 4 * ws.length) lines words defined →
      Listing labels scope address (t :: lines) (ws ++ words) defined
  | globalLabel (n : Nat) {scope address name lines words defined} : IsLabel name → name.head? ≠ some '.' →
      Listing labels name address lines words defined →
      Listing labels scope address ((List.replicate n ' ' ++ name ++ [':']) :: lines) words
        ((name, address) :: defined)
  | localLabel (n : Nat) {scope address name lines words defined} : IsLabel name → name.head? = some '.' →
      Listing labels scope address lines words defined →
      Listing labels scope address ((List.replicate n ' ' ++ name ++ [':']) :: lines) words
        ((scope ++ name, address) :: defined)

/-- A whole source: the labels mean what the lines define, and no label is defined twice. -/
def Source (lines : List (List Char)) (words : List ProgramWord) : Prop :=
  ∃ labels, (labels.map (·.1)).Nodup ∧ Listing labels [] 0 lines words labels

end Lrvm.Spec
