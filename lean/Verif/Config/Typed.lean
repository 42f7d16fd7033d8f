import Verif.Config.Spec

/-!
# Typed lookups `get<T>`, `get<T>` with default, `tryGet<T>`
-/

namespace Flame.Conf

variable {N : Type}

/-- The four types a parameter may have (/repo/src/flame/config.h:48-50, 230). -/
inductive Ty where
  | num | vec | str | cfgs
deriving DecidableEq, Repr

/-- The type held by a `value_t` (`boost::variant::which`). -/
def Val.ty : Val N → Ty
  | .num _ => .num
  | .vec _ => .vec
  | .str _ => .str
  | .cfgs _ => .cfgs

/-- The two exceptions involved (`key_error` of /repo/src/flame/util.h, `boost::bad_get`). -/
inductive Exc where
  | keyError
  | badGet
deriving DecidableEq, Repr

/-- `Config::getAny` (/repo/src/config.cpp:57-67). -/
def getAny (h : Addr → VMap N) (c : Cfg) (k : String) : Except Exc (Val N) :=
  match (h c.own).find k with
  | some v => .ok v
  | none =>
    match c.imp with
    | none => .error .keyError
    | some i =>
      match (h i).find k with
      | some v => .ok v
      | none => .error .keyError

/-- `Config::tryGetAny` (/repo/src/config.cpp:39-55): result flag and new content of `ret`. -/
def tryGetAny (h : Addr → VMap N) (c : Cfg) (k : String) (ret : Val N) : Bool × Val N :=
  match (h c.own).find k with
  | some v => (true, v)
  | none =>
    match c.imp with
    | none => (false, ret)
    | some i =>
      match (h i).find k with
      | some v => (true, v)
      | none => (false, ret)

/-- `boost::get<T>(value)`: the value if it holds type `T`, else `bad_get`. -/
def boostGet (T : Ty) (v : Val N) : Except Exc (Val N) :=
  if v.ty = T then .ok v else .error .badGet

/-- `Config::get<T>(name)` (/repo/src/flame/config.h:121-129): `bad_get` is translated, `key_error`
passes through. -/
def getT (h : Addr → VMap N) (c : Cfg) (T : Ty) (k : String) : Except Exc (Val N) :=
  match getAny h c k with
  | .error e => .error e
  | .ok v =>
    match boostGet T v with
    | .ok w => .ok w
    | .error .badGet => .error .keyError
    | .error e => .error e

/-- `Config::get<T>(name, def)` (/repo/src/flame/config.h:139-148): both exceptions are caught. -/
def getDef (h : Addr → VMap N) (c : Cfg) (T : Ty) (k : String) (d : Val N) :
    Except Exc (Val N) :=
  match getAny h c k with
  | .error .keyError => .ok d
  | .error .badGet => .ok d
  | .ok v =>
    match boostGet T v with
    | .ok w => .ok w
    | .error .badGet => .ok d
    | .error .keyError => .ok d

/-- `Config::tryGet<T>(name, val)` (/repo/src/flame/config.h:154-166): result flag and new content
of `val`. The local `ret` is default constructed (`0.0`). -/
def tryGetT [Zero N] (h : Addr → VMap N) (c : Cfg) (T : Ty) (k : String) (val : Val N) :
    Bool × Val N :=
  match tryGetAny h c k (.num 0) with
  | (true, ret) =>
    match boostGet T ret with
    | .ok w => (true, w)
    | .error _ => (false, val)
  | (false, _) => (false, val)

end Flame.Conf
