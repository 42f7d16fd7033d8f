import Verif.Machine.Spec

/-!
# Field-by-field copies of the shipped state and element classes

The generic machine model leaves `assign` and the clone constructors of the subclasses abstract.
Here they are transcribed member by member, so that a forgotten member would be visible.
Value types (doubles, particles, vectors, matrices, tables) are abstract type parameters: all of
these C++ members are value types (`double`, `std::vector`, ublas with bounded storage, structs).
-/

namespace Flame.Mach.Copies

/-! ## states -/

/-- Members of `MomentState` other than the control fields of `StateBase`
(/repo/src/flame/moment.h:112-123 and `pos`, /repo/src/flame/base.h:37). -/
structure MomentFields (D P V M : Type) where
  pos : D
  ref : P
  real : List P
  moment0 : List V
  moment1 : List M
  transmat : List M
  moment0_env : V
  moment0_rms : V
  moment1_env : M
  last_caviphi0 : D

/-- `MomentState::MomentState(const MomentState&, clone_tag)` (/repo/src/moment.cpp:235-246) over
`StateBase::StateBase(const StateBase&, clone_tag)` (/repo/src/base.cpp:25-30). -/
def momentClone {D P V M : Type} (o : St (MomentFields D P V M)) : St (MomentFields D P V M) where
  nextElem := 0
  retreat := false
  payload :=
    { pos := o.payload.pos
      ref := o.payload.ref
      real := o.payload.real
      moment0 := o.payload.moment0
      moment1 := o.payload.moment1
      transmat := o.payload.transmat
      moment0_env := o.payload.moment0_env
      moment0_rms := o.payload.moment0_rms
      moment1_env := o.payload.moment1_env
      last_caviphi0 := o.payload.last_caviphi0 }

/-- `MomentState::assign` (/repo/src/moment.cpp:248-263) and `StateBase::assign`
(/repo/src/base.cpp:32-35), statement by statement. -/
def momentAssign {D P V M : Type} (t o : St (MomentFields D P V M)) : St (MomentFields D P V M) :=
  let t := { t with payload := { t.payload with ref := o.payload.ref } }
  let t := { t with payload := { t.payload with real := o.payload.real } }
  let t := { t with payload := { t.payload with moment0 := o.payload.moment0 } }
  let t := { t with payload := { t.payload with moment1 := o.payload.moment1 } }
  let t := { t with payload := { t.payload with transmat := o.payload.transmat } }
  let t := { t with payload := { t.payload with moment0_env := o.payload.moment0_env } }
  let t := { t with payload := { t.payload with moment0_rms := o.payload.moment0_rms } }
  let t := { t with payload := { t.payload with moment1_env := o.payload.moment1_env } }
  let t := { t with payload := { t.payload with last_caviphi0 := o.payload.last_caviphi0 } }
  { t with payload := { t.payload with pos := o.payload.pos } }

/-- Members of `VectorState` and `MatrixState` (/repo/src/flame/state/vector.h:31,
/repo/src/flame/state/matrix.h:32; both hold one `state` member). -/
structure LinFields (D V : Type) where
  pos : D
  state : V

/-- `VectorState`/`MatrixState` clone constructors (/repo/src/linear.cpp:40-43, 90-93). -/
def linClone {D V : Type} (o : St (LinFields D V)) : St (LinFields D V) where
  nextElem := 0
  retreat := false
  payload := { pos := o.payload.pos, state := o.payload.state }

/-- `VectorState::assign`, `MatrixState::assign` (/repo/src/linear.cpp:45-52, 95-102). -/
def linAssign {D V : Type} (t o : St (LinFields D V)) : St (LinFields D V) :=
  let t := { t with payload := { t.payload with state := o.payload.state } }
  { t with payload := { t.payload with pos := o.payload.pos } }

/-! ## elements -/

/-- Members of `MomentElementBase` (/repo/src/flame/moment.h:178-195) and `length`. -/
structure MomentElem (D P M : Type) where
  length : D
  last_ref_in : P
  last_ref_out : P
  last_real_in : List P
  last_real_out : List P
  transfer : List M
  misalign : List M
  misalign_inv : List M
  dx : D
  dy : D
  pitch : D
  yaw : D
  roll : D
  skipcache : Bool
  scratch : M

/-- `MomentElementBase::assign` (/repo/src/moment.cpp:563-580) with the `length` part of
`ElementVoid::assign` (/repo/src/base.cpp:77). -/
def momentElemAssign {D P M : Type} (t o : MomentElem D P M) : MomentElem D P M :=
  let t := { t with last_real_in := o.last_real_in }
  let t := { t with last_real_out := o.last_real_out }
  let t := { t with last_ref_in := o.last_ref_in }
  let t := { t with last_ref_out := o.last_ref_out }
  let t := { t with transfer := o.transfer }
  let t := { t with misalign := o.misalign }
  let t := { t with misalign_inv := o.misalign_inv }
  let t := { t with dx := o.dx }
  let t := { t with dy := o.dy }
  let t := { t with pitch := o.pitch }
  let t := { t with yaw := o.yaw }
  let t := { t with roll := o.roll }
  let t := { t with skipcache := o.skipcache }
  { t with length := o.length }

/-- `ElementSource` of MomentMatrix (/repo/src/moment.cpp:771-805). -/
structure MomentSource (D P V M : Type) where
  base : MomentElem D P M
  istate : St (MomentFields D P V M)

/-- Its `assign` (/repo/src/moment.cpp:800-804). -/
def momentSourceAssign {D P V M : Type} (t o : MomentSource D P V M) : MomentSource D P V M :=
  { base := momentElemAssign t.base o.base, istate := momentAssign t.istate o.istate }

/-- `ElementSBend` of MomentMatrix (/repo/src/moment.cpp:914-938). -/
structure MomentSBend (D P M : Type) where
  base : MomentElem D P M
  hdipoleFitMode : Nat

/-- Its `assign` (/repo/src/moment.cpp:934-938). -/
def momentSBendAssign {D P M : Type} (t o : MomentSBend D P M) : MomentSBend D P M :=
  let t := { t with base := momentElemAssign t.base o.base }
  { t with hdipoleFitMode := o.hdipoleFitMode }

/-- Members of `LinearElementBase` (/repo/src/flame/linear.h:43) and `length`. -/
structure LinElem (D M : Type) where
  length : D
  transfer : M

/-- `LinearElementBase::assign` (/repo/src/flame/linear.h:45-50), used by marker, drift, sbend,
quadrupole, solenoid and generic of Vector and TransferMatrix. -/
def linElemAssign {D M : Type} (t o : LinElem D M) : LinElem D M :=
  let t := { t with transfer := o.transfer }
  { t with length := o.length }

/-- `ElementSource` of Vector and TransferMatrix (/repo/src/linear.cpp:169-196). -/
structure LinSource (D V M : Type) where
  base : LinElem D M
  istate : St (LinFields D V)

/-- The source inherits `LinearElementBase::assign`; `istate` is not assigned
(/repo/src/linear.cpp:169-196 has no override). -/
def linSourceAssign {D V M : Type} (t o : LinSource D V M) : LinSource D V M :=
  { t with base := linElemAssign t.base o.base }

/-- Members of `ElementRFCavity` (/repo/src/flame/rf_cavity.h:56-96). -/
structure RFCavity (D P M L T : Type) where
  base : MomentElem D P M
  lattice : List L
  mlptable : T
  cavData : T
  cavTLMLineTab : List T
  fRF : D
  ionFys : D
  phi_ref : D
  cRm : D
  cavi : Nat
  forcettfcalc : Bool
  mpoleLevel : Nat
  emitGrowth : Nat
  cavType : String
  dataFile : String
  synAccTab : List D
  /-- `have_RefNrm`, `RefNrm`. -/
  refNrm : Option D
  /-- `have_SynComplex`, `SynComplex`. -/
  synComplex : Option (List D)
  /-- `have_EkLim`, `EkLim`. -/
  ekLim : Option (List D)
  /-- `have_NrLim`, `NrLim`. -/
  nrLim : Option (List D)

/-- `ElementRFCavity::assign` (/repo/src/flame/rf_cavity.h:139-155). -/
def rfCavityAssign {D P M L T : Type} (t o : RFCavity D P M L T) : RFCavity D P M L T :=
  let t := { t with base := momentElemAssign t.base o.base }
  let t := { t with lattice := o.lattice }
  let t := { t with mlptable := o.mlptable }
  let t := { t with cavData := o.cavData }
  let t := { t with cavTLMLineTab := o.cavTLMLineTab }
  let t := { t with fRF := o.fRF }
  let t := { t with ionFys := o.ionFys }
  let t := { t with phi_ref := o.phi_ref }
  let t := { t with mpoleLevel := o.mpoleLevel }
  let t := { t with emitGrowth := o.emitGrowth }
  let t := { t with cRm := o.cRm }
  let t := { t with cavi := o.cavi }
  { t with forcettfcalc := o.forcettfcalc }

end Flame.Mach.Copies
