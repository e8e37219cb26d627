import Mathlib.Data.List.Basic

/-! Model of `generate_unique_name` in `rainbow/simulators/prox_rigid_bodies/api.py`. Texts are lists of characters. In Model/Scenes.lean the
names it returns are an arbitrary supply; here is how they come about. -/

namespace Verif

/-- api.py:36-37: `replace(ic, '_')` for the characters of `invalid_chars` in turn (the underscore is not one of them). -/
def cleanName (t : List Char) : List Char :=
  [' ', '.', ':', '-'].foldl (fun t ic => t.map fun c => if c = ic then '_' else c) t

/-- api.py:22-39 `generate_unique_name`; `n` is `str(random.random())` and `now` is `str(datetime.datetime.now())`. -/
def uniqueName (n now name : List Char) : List Char := cleanName (name ++ ['_'] ++ n ++ ['_'] ++ now)

end Verif
