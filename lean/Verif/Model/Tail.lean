import Verif.Model.Errors

/-!
# Account tail (rent claimer)

`state/src/tail/mod.rs` and `state/src/tail/rent_claimer.rs`.  Every `TailReadError` becomes
`InvalidRentClaimerLayout` (mod.rs:84-88).
-/

namespace Verif

/-- `RentClaimerEntry::read`, i.e. `TailDescriptor::read` (state/src/tail/mod.rs:98-113) with `from_parts`
(rent_claimer.rs:26-42): version, reserved bytes, claimer and bytes consumed. -/
def claimerEntryRead (b : Bytes) : R (UInt8 × Bytes × Key × Nat) :=
  if b.length < 8 then .error E.st_invalidRentClaimerLayout
  else if b.getD 0 0 ≠ 1 then .error E.st_invalidRentClaimerLayout
  else
    let stop := 8 + rd b 2 2
    if b.length < stop then .error E.st_invalidRentClaimerLayout
    else if (sl b 8 stop).length ≠ 32 then .error E.st_invalidRentClaimerLayout
    else .ok (b.getD 1 0, sl b 4 8, sl b 8 stop, stop)

/-- `read_strict`, state/src/tail/rent_claimer.rs:57-72. -/
def claimerReadStrict (tail : Bytes) : R (Option Key) :=
  if tail = [] then .ok none
  else if tail.length ≠ 40 then .error E.st_invalidRentClaimerLayout
  else do
    let (version, payload, claimer, consumed) ← claimerEntryRead tail
    if consumed ≠ 40 ∨ version ≠ 1 ∨ payload ≠ zeros 4 then .error E.st_invalidRentClaimerLayout
    else .ok (some claimer)

/-- `rent_claimer::entry`, state/src/tail/rent_claimer.rs:76-84. -/
def claimerEntry (claimer : Key) : Bytes := [1, 1] ++ natLE 2 32 ++ zeros 4 ++ claimer

/-- `read_first_of::<RentClaimerEntry>`, state/src/tail/mod.rs:168-187, i.e. `rent_claimer::read` (46-48). -/
def claimerReadGo : Nat → Bytes → R (Option Key)
  | 0, b => if b = [] then .ok none else .error .outOfFuel
  | fuel + 1, b =>
    if b = [] then .ok none
    else if b.length < 8 then .error E.st_invalidRentClaimerLayout
    else
      let entryLen := 8 + rd b 2 2
      if b.length < entryLen then .error E.st_invalidRentClaimerLayout
      else if b.getD 0 0 = 1 then do
        let (_, _, claimer, _) ← claimerEntryRead b
        .ok (some claimer)
      else claimerReadGo fuel (b.drop entryLen)

def claimerRead (tail : Bytes) : R (Option Key) := claimerReadGo tail.length tail

/-- `SavedTail::take`, state/src/tail/mod.rs:222-231. -/
def savedTailTake (tail : Bytes) : R Bytes := do
  let _ ← claimerReadStrict tail
  .ok tail

/-- `SavedTail::restore_at`, state/src/tail/mod.rs:244-256. -/
def restoreAt (saved data : Bytes) (offset : Nat) : R Bytes :=
  if saved.length = 0 then .ok data
  else if offset + saved.length > data.length then .error .invalidAccountData
  else .ok (put data offset saved)

/-- `SavedTail::restore`, state/src/tail/mod.rs:259-265. -/
def restoreTail (saved data : Bytes) : R Bytes :=
  if saved.length > data.length then .error .invalidAccountData
  else restoreAt saved data (data.length - saved.length)

end Verif
