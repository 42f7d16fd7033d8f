import Mathlib.Data.Real.Basic

/-!
# The listing of a configuration

Model of `show_value` and `Config::show` (/repo/src/config.cpp:126-195), used by `operator<<` for configurations (/repo/src/flame/config.h:210, 232-237).  A configuration is given as the entries of `*values` in the order of the map;
values of enclosing scopes are not listed.  Numbers are written with `fmt`, the formatting of the stream.  Simplification: the indent does not
exceed the range of `unsigned`.
-/

namespace Flame.Listing

/-- Text. -/
abbrev Str := List Char

mutual
/-- `Config::value_t` (/repo/src/flame/config.h:70-75). -/
inductive Val
  | num (x : ℝ)
  | str (s : Str)
  | vec (l : List ℝ)
  | cfgs (l : Cfgs)

/-- `Config::values_t`, the entries in turn (/repo/src/flame/config.h:79). -/
inductive Cfg
  | nil
  | cons (name : Str) (v : Val) (rest : Cfg)

/-- `Config::vector_t` (/repo/src/flame/config.h:77). -/
inductive Cfgs
  | nil
  | cons (c : Cfg) (rest : Cfgs)
end

/-- `doindent` (/repo/src/config.cpp:178-183). -/
def sp (n : Nat) : Str := List.replicate n ' '

/-- The elements of a vector (/repo/src/config.cpp:153-158). -/
def join (fmt : ℝ → Str) : List ℝ → Str
  | [] => []
  | [x] => fmt x
  | x :: y :: l => fmt x ++ ',' :: ' ' :: join fmt (y :: l)

mutual
/-- What `show_value` writes behind the name and " = " (/repo/src/config.cpp:135-176). -/
def body (fmt : ℝ → Str) (n : Nat) : Val → Str
  | .num x => fmt x ++ ['\n']
  | .str s => '"' :: (s ++ ['"', '\n'])
  | .vec l => '[' :: (join fmt l ++ [']', '\n'])
  | .cfgs l => '[' :: '\n' :: (items fmt n 0 l ++ (sp n ++ [']', '\n']))

/-- The loop over a vector of configurations from index `i` on (/repo/src/config.cpp:166-173). -/
def items (fmt : ℝ → Str) (n i : Nat) : Cfgs → Str
  | .nil => []
  | .cons c l => sp (n + 2) ++ ('[' :: ((toString i).toList ++ ("] = {\n".toList ++ (shown fmt (n + 4) c ++ (sp (n + 2) ++
      ("},\n".toList ++ items fmt n (i + 1) l))))))

/-- `Config::show` (/repo/src/config.cpp:187-195). -/
def shown (fmt : ℝ → Str) (n : Nat) : Cfg → Str
  | .nil => []
  | .cons k v r => sp n ++ (k ++ (' ' :: '=' :: ' ' :: (body fmt n v ++ shown fmt n r)))
end

end Flame.Listing
