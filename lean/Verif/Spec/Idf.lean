/-! # Specification of EnergyPlus input text

A reader for the syntax of EnergyPlus input files, independent of the writer: fields are separated by commas, objects end with a semicolon, an exclamation mark starts a
comment up to the end of the line, and white space around a field does not count. -/

namespace Resdx.Spec.Idf

/-- White space. -/
def isBlank (c : Char) : Bool := c = ' ' || c = '\n' || c = '\t' || c = '\r'

/-- A text without the white space around it. -/
def strip (l : List Char) : List Char := ((l.dropWhile isBlank).reverse.dropWhile isBlank).reverse

/-- A field as read: its text, whether it ends an object, and the comments that follow it (without the exclamation marks). -/
structure Token where
  text : List Char
  closes : Bool
  comment : List Char
  deriving DecidableEq

/-- Add a character of a comment to the last field read. -/
def addComment (c : Char) : List Token → List Token
  | [] => []
  | t :: l => { t with comment := t.comment ++ [c] } :: l

/-- Read characters; `inComment` tells whether a comment has been started, `cur` is the text of the current field and `done` the fields read, both backwards. -/
def scan : Bool → List Char → List Token → List Char → List Token
  | _, _, done, [] => done.reverse
  | true, cur, done, c :: l => if c = '\n' then scan false cur done l else scan true cur (addComment c done) l
  | false, cur, done, c :: l =>
    if c = ',' || c = ';' then scan false [] (⟨strip cur.reverse, c = ';', []⟩ :: done) l
    else if c = '!' then scan true cur done l
    else scan false (c :: cur) done l

/-- Group fields into objects. -/
def group : List Token → List (List Token)
  | [] => []
  | t :: l =>
    match t.closes, group l with
    | true, g => [t] :: g
    | false, [] => [[t]]
    | false, o :: g => (t :: o) :: g

/-- Read a text: for each object its class and fields, each with the text of the comment after it, less the customary dash and space. -/
def readText (l : List Char) : List (List (List Char × List Char)) := (group (scan false [] [] l)).map fun o => o.map fun t => (t.text, t.comment.drop 2)

/-- A text that can stand for a field. -/
structure Plain (l : List Char) : Prop where
  noSeparator : ∀ c ∈ l, c ≠ ',' ∧ c ≠ ';' ∧ c ≠ '!' ∧ c ≠ '\n'
  stripped : strip l = l

end Resdx.Spec.Idf
