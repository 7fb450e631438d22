import Verif.Basic

/-!
# Location trackers (src/location.rs)
-/

namespace PPC

/-- `location::Simple` (src/location.rs:28-44) as a signature over tokens `I` with
equality `eq`: no state, a location is the token index and a span is the range
`from..to`, as the pair of its ends. -/
@[reducible] def simpleSig (I : Type) (eq : I → I → Bool) : Sig where
  I := I
  L := Unit
  Loc := Nat
  Span := Nat × Nat
  advance _ _ := ()
  location _ index := index
  spanningTo _ fromIndex _ toIndex := (fromIndex, toIndex)
  eqI := eq
  eqLoc a b := a == b
  eqSpan a b := a == b

/-- `location::Rich` (src/location.rs:48-63). The converter is a parameter of
`Rich.advance` instead of a field (it never changes); the `Rc`s are transparent. -/
structure Rich where
  filename : String
  row : Nat
  column : Nat
  offset : Nat
deriving DecidableEq, Repr

/-- `RichOffset` (src/location.rs:138-144). -/
structure RichOffset where
  row : Nat
  column : Nat
  offset : Nat
  index : Nat
deriving DecidableEq, Repr

/-- `RichLocation` (src/location.rs:154-158). -/
structure RichLocation where
  filename : String
  offset : RichOffset
deriving DecidableEq, Repr

/-- `RichSpan` (src/location.rs:169-174). -/
structure RichSpan where
  filename : String
  from_ : RichOffset
  to : RichOffset
deriving DecidableEq, Repr

namespace Rich

/-- `Rich::new` (src/location.rs:78-86). -/
def new (filename : String) : Rich := ⟨filename, 1, 1, 0⟩

/-- The body of the loop over the characters (src/location.rs:95-102). -/
def advanceChar (r : Rich) (c : Char) : Rich :=
  if c = '\n' then { r with row := r.row + 1, column := 1 }
  else { r with column := r.column + 1 }

/-- `Rich::advance` (src/location.rs:93-104). -/
def advance {I : Type} (conv : I → String) (r : Rich) (t : I) : Rich :=
  let s := conv t
  let r := s.toList.foldl advanceChar r
  { r with offset := r.offset + s.utf8ByteSize }

/-- `RichOffset` of a tracker (src/location.rs:109-114, 121-126). -/
def toOffset (r : Rich) (index : Nat) : RichOffset := ⟨r.row, r.column, r.offset, index⟩

/-- `Rich::location` (src/location.rs:106-116). -/
def location (r : Rich) (index : Nat) : RichLocation := ⟨r.filename, r.toOffset index⟩

/-- `Rich::spanning_to` (src/location.rs:118-134). -/
def spanningTo (r : Rich) (fromIndex : Nat) (to : Rich) (toIndex : Nat) : RichSpan :=
  ⟨r.filename, r.toOffset fromIndex, to.toOffset toIndex⟩

end Rich

/-- `location::Rich` as a signature. -/
@[reducible] def richSig (I : Type) (eq : I → I → Bool) (conv : I → String) : Sig where
  I := I
  L := Rich
  Loc := RichLocation
  Span := RichSpan
  advance := Rich.advance conv
  location := Rich.location
  spanningTo := Rich.spanningTo
  eqI := eq
  eqLoc a b := a == b
  eqSpan a b := a == b

end PPC
