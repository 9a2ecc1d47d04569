import Verif.Py.Str
import Verif.Py.Real
import Verif.Py.Dict

/-!
# Model of `py/desimeter/bitmask.py` and `py/desimeter/posparams/movemask.py`

Bit numbers are natural numbers.  The `comment` and the optional `extra` dictionary of a
definition are not modelled (they are only stored).
-/

namespace Verif.Model.Bitmask
open Verif.Py

/-- Keys of `self._bits`: names and bit numbers. -/
inductive Key where
  | name (s : PyStr)
  | num (b : Nat)
  deriving DecidableEq

/-- `_MaskBit` (bitmask.py lines 65-97): name and number; `.mask` is `2**bitnum`. -/
structure Bit where
  name : PyStr
  bitnum : Nat
  mask : Nat

def mkBit (name : PyStr) (bitnum : Nat) : Bit := ⟨name, bitnum, 2 ^ bitnum⟩

abbrev BitMask := Dict Key Bit

/-- `BitMask.__init__` (lines 126-142). -/
def init (defs : List (PyStr × Nat)) : BitMask :=
  defs.foldl (fun d x => (d.set (.name x.1) (mkBit x.1 x.2)).set (.num x.2) (mkBit x.1 x.2)) []

/-- `self._bits[key]`. -/
def getBit (d : BitMask) (k : Key) : Except PyErr Bit :=
  match d.get? k with
  | some b => .ok b
  | none => .error .keyError

/-- `bitnum(name)` (lines 149-161). -/
def bitnum (d : BitMask) (s : PyStr) : Except PyErr Nat := (getBit d (.name s)).map (·.bitnum)

/-- `bitname(num)` (lines 163-175). -/
def bitname (d : BitMask) (b : Nat) : Except PyErr PyStr := (getBit d (.num b)).map (·.name)

/-- `mask(num)` for an integer (lines 211-212). -/
def maskNum (d : BitMask) (b : Nat) : Except PyErr Nat := (getBit d (.num b)).map (·.mask)

/-- `mask(name)` for a string `A|B|...` (lines 213-217). -/
def maskNames (d : BitMask) (s : PyStr) : Except PyErr Nat :=
  (s.splitOn '|').foldlM (fun (m : Nat) name => do
    let b ← getBit d (.name name)
    return m ||| b.mask) 0

/-- The `while` loop of `names` (lines 242-248). -/
def namesLoop (d : BitMask) (mask : ℤ) (b : Nat) : List PyStr :=
  if h : (2 : ℤ) ^ b ≤ mask then
    (if (2 ^ b &&& mask.toNat) ≠ 0 then
      [match d.get? (.num b) with
       | some bit => bit.name
       | none => "UNKNOWN".toList ++ (toString b).toList]
     else []) ++ namesLoop d mask (b + 1)
  else []
termination_by mask.toNat - b
decreasing_by
  have h1 : ((2 : ℕ) ^ b : ℤ) ≤ mask := by exact_mod_cast h
  have h2 : b < 2 ^ b := Nat.lt_two_pow_self
  omega

/-- `names(mask)` (lines 219-250). -/
def names (d : BitMask) (mask : ℤ) : List PyStr := namesLoop d mask 0

/-- The integer keys of the dictionary. -/
def numKeys (d : BitMask) : List Nat := d.keys.filterMap fun k => match k with
  | .num b => some b
  | .name _ => none

/-- `names()` without argument (lines 235-239). -/
def namesAll (d : BitMask) : Except PyErr (List PyStr) :=
  (pySort id (numKeys d)).mapM fun b => bitname d b

/-- `movemask` (movemask.py lines 4-16). -/
def movemaskDefs : List (PyStr × Nat) :=
  [("THETA_STUCK".toList, 0), ("PHI_STUCK".toList, 1), ("FAILED_FIT".toList, 2),
   ("INVALID_TABLE".toList, 3), ("INVALID_AFTER_FILTER".toList, 4)]

end Verif.Model.Bitmask
