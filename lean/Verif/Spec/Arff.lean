import Verif.Model.Arff

/-! # What a parsed ARFF file must say -/

namespace Golearn

/-- The name of a declared attribute. -/
def AttrBody.name : AttrBody → String
  | .float n _ => n
  | .cat n _ => n
  | .bin n => n

/-- What a field says in a column: a number for a float column, one of the values of a categorical column, and for a binary
column whether the number is positive. -/
def FieldSays (ops : ArffOps) (a : Attr) (t : String) (c : Bytes) : Prop :=
  match a.body with
  | .float _ _ => ∃ b, ops.parse t = some b ∧ c = packU64 b
  | .cat _ vs => c.length = 8 ∧ catGetString vs c = Res.ok t
  | .bin _ => ∃ b, ops.parse t = some b ∧ c = [if f64Pos b then 1#8 else 0#8]

/-- A field that says something in a column. -/
def FieldFits (ops : ArffOps) (b : AttrBody) (t : String) : Prop :=
  match b with
  | .float _ _ => (ops.parse t).isSome = true
  | .cat _ vs => t ∈ vs
  | .bin _ => (ops.parse t).isSome = true

/-- The grid `d` is the table of `rows` under the declared attributes: a column for each attribute, in the order of the declarations, of which the last
is the class; a row for each record; and reading row `i` of column `j` gives field `j` of record `i`, without the space around it. -/
structure ArffTable (ops : ArffOps) (bodies : List AttrBody) (rows : List (List Text)) (d : Dense) (cols : List Attr) : Prop where
  size : d.size = (bodies.length, rows.length)
  attrs : d.allAttributes.Perm cols
  declared : cols.map Attr.body = bodies
  cls : ∀ a, a ∈ d.allClassAttributes ↔ cols.getLast? = some a
  cells : ∀ (i j : Nat) a (r : List Text) v, cols[j]? = some a → rows[i]? = some r → r[j]? = some v →
    ∃ s c, d.getAttribute a = Res.ok s ∧ d.get s i = Res.ok c ∧ FieldSays ops a (String.ofList (trimSpace v)) c
  /-- a record that is too short leaves zeros -/
  short : ∀ (i j : Nat) a (r : List Text), cols[j]? = some a → rows[i]? = some r → r[j]? = none →
    ∃ s, d.getAttribute a = Res.ok s ∧ d.get s i = Res.ok (packU64 0)

/-- The record of a line of data, if it has one. -/
def recordOf (l : Text) : Option (List Text) :=
  match csvLine l with
  | .ok (some r) => some r
  | _ => none

/-- A line of data that can be read: it does not start with `@`; and if it is neither empty nor a comment it has a record. -/
def Readable (l : Text) : Prop :=
  l.head? ≠ some '@' ∧ (isDataLine l = true → ∃ r, csvLine l = Res.ok (some r))

/-- The records of lines of data. -/
def recordsOf (ls : List Text) : List (List Text) := (ls.filter isDataLine).filterMap recordOf

/-- What a file declares and holds, in full: `text` has a header, the line `@data`, and lines that can be read, of which the records have no more
fields than there are attributes, each of which says something in its column. -/
structure ArffFile (ops : ArffOps) (text : Text) (bodies : List AttrBody) (hdr : List Text) (dl : Text) (data rest : List Text) : Prop where
  lines : scanLines text = hdr ++ dl :: (data ++ rest)
  header : ∀ l ∈ hdr, trimSpace (l.map ops.lower) ≠ "@data".toList
  marker : dl.map ops.lower = "@data".toList
  marker' : dl.head? = some '@'
  readable : ∀ l ∈ data, Readable l
  attrs : arffAttributes ops.lower text = Res.ok bodies
  nonempty : bodies ≠ []
  names : (bodies.map AttrBody.name).Nodup
  few : ∀ n vs, AttrBody.cat n vs ∈ bodies → vs.length < 2 ^ 64
  records : ∀ r ∈ recordsOf data, r.length ≤ bodies.length ∧
    ∀ (j : Nat) b v, bodies[j]? = some b → r[j]? = some v → FieldFits ops b (String.ofList (trimSpace v))

/-! ## Files that are written -/

/-- A text of these lines. -/
def unlines (ls : List Text) : Text := ls.flatMap fun l => l ++ "\n".toList

/-- The line of an attribute. -/
def arffAttrLine (a : Attr) : Text := joinWith " ".toList ["@attribute".toList, a.name.toList, arffType a]

/-- The lines of a file for a table: the relation, the attributes, the marker and the rows; `txt a r` is the text of the cell of `a` in row `r`. -/
def arffLines (relation : String) (attrs : List Attr) (order : List Nat) (txt : Attr → Nat → String) : List Text :=
  ("@relation ".toList ++ relation.toList) :: [] :: (attrs.map arffAttrLine ++ [] :: "@data".toList ::
    order.map fun r => joinWith ",".toList (attrs.map fun a => (txt a r).toList))

/-- A word: not empty and without space. -/
def IsWord (t : Text) : Prop := t ≠ [] ∧ ∀ c ∈ t, isSpace c = false

instance (t : Text) : Decidable (IsWord t) := by unfold IsWord; infer_instance

/-- A word without commas and quotes. -/
def IsPlain (t : Text) : Prop := IsWord t ∧ ',' ∉ t ∧ '"' ∉ t

instance (t : Text) : Decidable (IsPlain t) := by unfold IsPlain; infer_instance

/-- What is asked of `unicode.ToLower`: it keeps the small letters of English, `@`, `{` and space. -/
structure LowerOk (lower : Char → Char) : Prop where
  keeps : ∀ c ∈ "@{abcdefghijklmnopqrstuvwxyz".toList, lower c = c
  space : ∀ c, isSpace c = true → isSpace (lower c) = true

/-- The attribute that is declared by the line of an attribute: a float attribute unless it is categorical. -/
def declaredAs (p : Int) (a : Attr) : AttrBody :=
  match a.body with
  | .cat n vs => .cat n vs
  | .float n _ => .float n p
  | .bin n => .float n p

/-- What is asked of a table that is written and read again: the names are different words; the values of a categorical attribute are different plain
words, and there is one at least; the relation is on one line; the texts of the cells are plain, and mean something in their column when they are read;
those of the first column start with neither `@` nor `%`; and no line is too long. -/
structure ArffWritable (ops : ArffOps) (relation : String) (attrs : List Attr) (order : List Nat) (txt : Attr → Nat → String) : Prop where
  nonempty : attrs ≠ []
  names : (attrs.map Attr.name).Nodup
  words : ∀ a ∈ attrs, IsWord a.name.toList
  values : ∀ a ∈ attrs, ∀ n vs, a.body = .cat n vs → vs ≠ [] ∧ vs.Nodup ∧ vs.length < 2 ^ 64 ∧ ∀ v ∈ vs, IsPlain v.toList
  oneLine : ∀ c ∈ relation.toList, c ≠ '\n' ∧ c ≠ '\r'
  plain : ∀ a ∈ attrs, ∀ r ∈ order, IsPlain (txt a r).toList
  means : ∀ a ∈ attrs, ∀ r ∈ order, a.isCat = false → (ops.parse (txt a r)).isSome = true
  first : ∀ a, attrs.head? = some a → ∀ r ∈ order, (txt a r).toList.head? ≠ some '@' ∧ (txt a r).toList.head? ≠ some '%'
  short : ∀ l ∈ arffLines relation attrs order txt, byteLen l < 65536

end Golearn
