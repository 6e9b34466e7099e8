import Verif.Model.Basic

namespace Verif

/-- `CURATED_PROGRAMS`, state/src/action/program_curated.rs:14-35. -/
def curatedPrograms : List Key := [
  [0, 0, 0, 0, 0, 0, 0, 0, 0, 0, 0, 0, 0, 0, 0, 0, 0, 0, 0, 0, 0, 0, 0, 0, 0, 0, 0, 0, 0, 0, 0, 0],
  [6, 221, 246, 225, 215, 101, 161, 147, 217, 203, 225, 70, 206, 235, 121, 172, 28, 180, 133, 237, 95, 91, 55, 145, 58, 140, 245, 133, 126,
    255, 0, 169],
  [6, 221, 246, 225, 238, 117, 143, 222, 138, 60, 137, 215, 166, 35, 250, 133, 224, 81, 209, 114, 91, 157, 99, 29, 94, 145, 213, 104, 233, 4,
    16, 238],
  [6, 161, 216, 23, 145, 55, 84, 42, 152, 52, 55, 189, 254, 42, 122, 178, 85, 86, 165, 18, 7, 142, 233, 0, 0, 0, 0, 0, 0, 0, 0, 0]]

/-- `ProgramCurated::is_curated_program`, state/src/action/program_curated.rs:56-58. -/
def isCurated (id : Key) : Bool := curatedPrograms.any (fun c => decide (c = id))

end Verif
