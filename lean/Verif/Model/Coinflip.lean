import Verif.Base.Err
import Verif.Model.Md5

/-!
Model of `Coinflip` (feedx/experiment_design.py:311-359).
-/

namespace Feedx

/-- A `Coinflip` object: its salt (experiment_design.py:338). -/
structure Coinflip where
  salt : String
  deriving DecidableEq

/-- `Coinflip(salt)` (experiment_design.py:326-338). -/
def mkCoinflip (salt : String) : Py Coinflip :=
  if salt = "" then .error .valueError else .ok ⟨salt⟩

/-- `Coinflip.with_random_salt` (experiment_design.py:340-344); `bytes` is what
`rng.bytes(salt_length)` returned (values below 256). -/
def coinflipOfBytes (bytes : List Nat) : Py Coinflip := mkCoinflip (String.ofList (Md5.hex bytes))

/-- `coinflip(item_id)` (experiment_design.py:346-359) for a string item id. -/
def Coinflip.flip (c : Coinflip) (item : String) : Nat :=
  Md5.intBase16 (Md5.md5Hex (c.salt ++ item).toList) % 2

end Feedx
