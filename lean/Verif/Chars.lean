import Verif.Location
import Verif.Cursor

/-!
# Parsing characters
-/

namespace PPC

/-- Characters, with the bundled token-index locations. -/
@[reducible] def charSig : Sig := simpleSig Char (fun a b => a == b)

/-- The characters of a text as input. -/
@[reducible] def charEnv (xs : List Char) : Env charSig := ⟨fun i => xs[i]?, ()⟩

end PPC
