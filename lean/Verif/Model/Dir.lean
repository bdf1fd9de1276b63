set_option autoImplicit false

namespace WindMult

/-- The eight wind directions, the keys of the tables in `/repo/utilities/value_lookup.py`
25-74 (a wind direction names where the wind comes from). -/
inductive Dir
  | w | e | n | s | nw | ne | se | sw
  deriving DecidableEq, Repr

/-- The order of the direction loops in `/repo/terrain/terrain_mult.py` line 92. -/
def Dir.terrainOrder : List Dir := [.w, .e, .n, .s, .nw, .ne, .se, .sw]

/-- `one_dir in ['w', 'e', 'n', 's']` (`/repo/terrain/terrain_mult.py` line 102). -/
def Dir.isCardinal : Dir → Bool
  | .w => true
  | .e => true
  | .n => true
  | .s => true
  | _ => false

end WindMult
