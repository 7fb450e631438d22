import Verif.Builder
import Verif.Chars

/-!
# The JSON parser (src/test_json.rs)

The grammar that the crate's JSON test builds, with the builder methods of `Verif.Builder`.
-/

namespace PPC.Json

open PPC

/-- `Value` (src/test_json.rs:5-14). `F` stands for `f64`; `i128` values are integers. -/
inductive Value (F : Type) : Type where
  | null
  | bool (b : Bool)
  | int (n : Int)
  | float (x : F)
  | string (s : String)
  | object (kvs : List (String × Value F))
  | array (vs : List (Value F))

section

variable (F : Type)

/-- The one recursive parser (src/test_json.rs:21). -/
@[reducible] def names : Names charSig := ⟨Unit, fun _ => Value F, fun _ => voidErr charSig⟩

/-- Parsers of characters with the error type `VoidedError<char>` (src/test_json.rs:16). -/
abbrev P (α : Type) : Type 1 := G charSig (names F) (voidErr charSig) α

/-- `whitespace` (src/test_json.rs:23) -/
def whitespace : P F (List Char) := (Build.oneOf " \n\r\t").repeatedWith.parser

/-- `null` (src/test_json.rs:26) -/
def null : P F (Value F) := .to (Build.seqOf "null") .null

/-- `bool_true` (src/test_json.rs:27) -/
def boolTrue : P F (Value F) := .to (Build.seqOf "true") (.bool true)

/-- `bool_false` (src/test_json.rs:28) -/
def boolFalse : P F (Value F) := .to (Build.seqOf "false") (.bool false)

/-- `hex_to_u32` (src/test_json.rs:31-39). The subtraction wraps around, as it does in a build
without overflow checks; with overflow checks, the code panics for `'0'..='9'` instead. -/
def hexToU32 (c : Char) : Option UInt32 :=
  if '0' ≤ c ∧ c ≤ '9' then some (c.val - 'o'.val)
  else if 'a' ≤ c ∧ c ≤ 'f' then some (c.val - 'a'.val + 10)
  else if 'A' ≤ c ∧ c ≤ 'F' then some (c.val - 'A'.val + 10)
  else none

/-- `collapse_hex` (src/test_json.rs:41), wrapping around. -/
def collapseHex (p : UInt32 × UInt32) : UInt32 := p.1 * 16 + p.2

/-- `char::from_u32` of the standard library. -/
def charFromU32 (n : UInt32) : Option Char :=
  if h : n.isValidChar then some ⟨n, h⟩ else none

/-- The function given to `try_map` in `hex_escape` (src/test_json.rs:50-59); `VoidedError`s have no
contents, so the message is left out. -/
def checkChar (codePoint : UInt32) (_ : charSig.Span) : TryMapResult Char Unit :=
  match charFromU32 codePoint with
  | some c => .ok c
  | none => .recovered '?' [()]

/-- `hex_escape` (src/test_json.rs:43-60) -/
def hexEscape : P F Char :=
  .boxed (.tryMap checkChar
    (.map collapseHex (.then_
      (.map collapseHex (.then_
        (.map collapseHex (.then_ (.filterMap hexToU32) (.filterMap hexToU32)))
        (.filterMap hexToU32)))
      (.filterMap hexToU32))))

/-- `escape` (src/test_json.rs:62-71) -/
def escape : P F Char :=
  .boxed ((((((((((G.just '"' : P F Char).altersWith (.just '\\')).and (.just '/')).and
    (.to (.just 'b') '\x08')).and (.to (.just 'f') '\x0c')).and (.to (.just 'n') '\n')).and
    (.to (.just 'r') '\r')).and (.to (.just 't') '\t')).and
    (.ignoreThen (.just 'u') (hexEscape F))).parser)

/-- `key` (src/test_json.rs:73-78) -/
def key : P F String :=
  .boxed (.map String.ofList (.delimitedBy (.just '"')
    (G.or (Build.noneOf "\"\\") (.ignoreThen (.just '\\') (escape F))).repeatedWith.parser (.just '"')))

/-- `string` (src/test_json.rs:80) -/
def string : P F (Value F) := .boxed (.map .string (key F))

/-- `sign` (src/test_json.rs:83) -/
def sign : P F Bool := .boxed (.map Option.isSome (.orNot (.just '-')))

/-- `integer_nlz` (src/test_json.rs:85-94) -/
def integerNlz : P F String :=
  .boxed (.or (.to (.just '0') "0")
    (.map (fun p => String.ofList (p.1 :: p.2)) (.then_ (Build.oneOf "123456789")
      (Build.oneOf "0123456789").repeatedWith.parser)))

/-- `integer_lz` (src/test_json.rs:96-100) -/
def integerLz : P F String :=
  .boxed (.map String.ofList ((Build.oneOf "0123456789").repeatedWith.atLeast 1).parser)

/-- `fraction` (src/test_json.rs:102) -/
def fraction : P F String := .boxed (.ignoreThen (.just '.') (integerLz F))

/-- `exponent_sign` (src/test_json.rs:104-110) -/
def exponentSign : P F Bool :=
  .boxed (.map (fun x => x == some '-') (.orNot (Build.oneOf "-+")))

/-- `exponent` (src/test_json.rs:112-115) -/
def exponent : P F (Bool × String) :=
  .boxed (.then_ (.ignoreThen (Build.oneOf "eE") (exponentSign F)) (integerLz F))

/-- `str::parse::<i128>` of the standard library, for a non-empty string of decimal digits. -/
def parseI128 (s : String) : Option Int :=
  let n := s.toList.foldl (fun n c => 10 * n + (c.toNat - '0'.toNat)) 0
  if n < 2 ^ 127 then some n else none

variable {F} in
/-- The function given to `try_map` in `number` (src/test_json.rs:121-163); `parseF` is
`str::parse::<f64>` of the standard library. The string that the code builds in lines 123-138 is not
used by it, and left out. -/
def numberOf (parseF : String → Option F) :
    ((Bool × String) × Option String) × Option (Bool × String) → charSig.Span →
      TryMapResult (Value F) Unit
  | (((sign, int), frac), exp), _ =>
    if frac.isSome || exp.isSome then
      match parseF int with
      | some parsed => .ok (.float parsed)
      | none => .recovered (.int 0) [()]
    else
      match parseI128 int with
      | some parsed => .ok (.int (if sign then -parsed else parsed))
      | none => .recovered (.int 0) [()]

variable {F} (parseF : String → Option F)

/-- `number` (src/test_json.rs:117-164) -/
def number : P F (Value F) :=
  .boxed (.tryMap (numberOf parseF)
    (.then_ (.then_ (.then_ (sign F) (integerNlz F)) (.orNot (fraction F))) (.orNot (exponent F))))

/-- `value` inside its own definition (src/test_json.rs:21) -/
def value : P F (Value F) := .call ()

/-- `key_value_pair` (src/test_json.rs:167-173) -/
def keyValuePair : P F (String × Value F) :=
  .boxed (.then_ (.thenIgnore (.thenIgnore (.ignoreThen (whitespace F) (key F)) (whitespace F))
    (.just ':')) value)

/-- `object` (src/test_json.rs:175-180) -/
def object : P F (Value F) :=
  .boxed (.map .object (.delimitedBy (.just '{')
    (.or (keyValuePair.separatedWith (.just ',' : P F Char)).parser (.to (whitespace F) [])) (.just '}')))

/-- `array` (src/test_json.rs:182-188) -/
def array : P F (Value F) :=
  .boxed (.map .array (.delimitedBy (.just '[')
    (.or (value.separatedWith (.just ',' : P F Char)).parser (.to (whitespace F) [])) (.just ']')))

/-- The choice between the kinds of values (src/test_json.rs:191-197) -/
def choice : P F (Value F) :=
  ((((((object.altersWith array).and (string F)).and (boolTrue F)).and (boolFalse F)).and
    (null F)).and (number parseF)).parser

/-- The definition of the recursive parser (src/test_json.rs:190-199) -/
def defs : Defs charSig (names F) := fun _ =>
  some (.withError (.paddedBy (whitespace F) (choice parseF)))

/-- `json` (src/test_json.rs:21-200) -/
def json : P F (Value F) := .call ()

end

end PPC.Json
