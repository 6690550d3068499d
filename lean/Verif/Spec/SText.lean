import Verif.Model.SText

/-!
# How attributes are written, after the SGRID conventions
-/

set_option autoImplicit false

namespace Verif.Spec
open Verif.SText (Decl)

/-- A name of letters, digits and underscores, as `[a-zA-Z0-9_]+` says. -/
def Ident (s : List Char) : Prop := s ≠ [] ∧ ∀ c ∈ s, c.isAlphanum ∨ c = '_'

/-- A word of letters. -/
def Word (s : List Char) : Prop := s ≠ [] ∧ ∀ c ∈ s, c.isAlpha

/-- A name of letters and underscores. -/
def PlainName (s : List Char) : Prop := s ≠ [] ∧ ∀ c ∈ s, c.isAlpha ∨ c = '_'

/-- A declaration made of names. -/
def Proper (d : Decl) : Prop := Ident d.faceDim ∧ Ident d.nodeDim ∧ Word d.padding

/-- How a declaration is written. -/
def written (d : Decl) : List Char :=
  d.faceDim ++ ": ".toList ++ d.nodeDim ++ " (padding: ".toList ++ d.padding ++ ")".toList

/-- Text between declarations: anything but letters, digits and underscores. -/
def Gap (s : List Char) : Prop := ∀ c ∈ s, ¬ (c.isAlphanum ∨ c = '_')

/-- A text that consists of declarations and gaps. -/
inductive Written : List Decl → List Char → Prop
  | nil (g : List Char) (hg : Gap g) : Written [] g
  | cons (g : List Char) (d : Decl) (ds : List Decl) (s : List Char) (hg : Gap g) (hd : Proper d)
      (h : Written ds s) : Written (d :: ds) (g ++ written d ++ s)

/-- The declarations found in a text: the leftmost one, then those of the text after it, and none when
no declaration occurs. -/
inductive Found : List Decl → List Char → Prop
  | nil (s : List Char) (h : ∀ (g t : List Char) (d : Decl), Proper d → s ≠ g ++ written d ++ t) :
      Found [] s
  | cons (g : List Char) (d : Decl) (ds : List Decl) (s : List Char) (hd : Proper d)
      (first : ∀ (g' t : List Char) (d' : Decl), Proper d' →
        g ++ written d ++ s = g' ++ written d' ++ t → g.length ≤ g'.length)
      (h : Found ds s) : Found (d :: ds) (g ++ written d ++ s)

/-- A text of entries `letter: name`, a space before each. -/
def axesText : List (Char × List Char) → List Char
  | [] => []
  | (c, w) :: t => [' ', c, ':', ' '] ++ w ++ axesText t

/-- The text of one entry. -/
def axisEntry (e : Char × List Char) : List Char := e.1 :: ':' :: ' ' :: e.2

/-- The entries `letter: name` found in a text: the leftmost one with the longest name of letters and
underscores, then those of the text after it, and none when no entry occurs. -/
inductive FoundAxes : List (Char × List Char) → List Char → Prop
  | nil (s : List Char) (h : ∀ (g t : List Char) (e : Char × List Char), e.1.isAlpha → PlainName e.2 →
      s ≠ g ++ axisEntry e ++ t) : FoundAxes [] s
  | cons (g : List Char) (e : Char × List Char) (es : List (Char × List Char)) (s : List Char)
      (hc : e.1.isAlpha) (hw : PlainName e.2)
      (first : ∀ (g' t : List Char) (e' : Char × List Char), e'.1.isAlpha → PlainName e'.2 →
        g ++ axisEntry e ++ s = g' ++ axisEntry e' ++ t → g.length ≤ g'.length)
      (longest : ∀ c, s.head? = some c → ¬ (c.isAlpha ∨ c = '_'))
      (h : FoundAxes es s) : FoundAxes (e :: es) (g ++ axisEntry e ++ s)

/-- The last name given for a letter, whatever its case. -/
def lastOf (letter : Char) (es : List (Char × List Char)) : Option (List Char) :=
  (es.reverse.find? (fun e => e.1.toLower == letter)).map Prod.snd

end Verif.Spec
