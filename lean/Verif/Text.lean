import Lean
/-!
# Notation for texts

`t!"abc"` is the list of the character codes of the text, `[97, 98, 99]`.  It is only
notation: the list is written out when the file is read, so that the kernel does not
have to decode texts.
-/

namespace Bac

syntax:max "t!" noWs str : term

open Lean in
macro_rules
  | `(t!$s:str) => do
    let ns := s.getString.toList.toArray.map fun c => Syntax.mkNumLit (toString c.toNat)
    `(([$ns,*] : List Nat))

example : t!"ab(" = [97, 98, 40] := rfl

end Bac
