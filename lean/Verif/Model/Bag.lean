import Verif.Model.PSObject

/-!
# Objects made of keyword arguments

Models `PSCustomObject.__init__`, /repo/src/psrpcore/types/_complex.py:76-84, and `dict_to_psobject`,
/repo/src/psrpcore/_payload.py:292-299. Type names are texts: `text` is the one a value is.
-/

namespace Verif

variable {V : Type}

/-- `PSNoteProperty(name, value=value)`, /repo/src/psrpcore/types/_complex.py:84; _payload.py:297. There is no `ps_type`. -/
def noteOf (name : PyStr) (v : Option V) : PsProp V := { name := name, body := .note (some v) }

/-- The loop over the keyword arguments, /repo/src/psrpcore/types/_complex.py:77-84. -/
def bagLoop (text : Option V → PyStr) : List (PyStr × Option V) → PsObj V → PsObj V
  | [], o => o
  | (name, v) :: rest, o =>
    if name = txt! "PSTypeName" then bagLoop text rest { o with typeNames := text v :: o.typeNames }
    else bagLoop text rest { o with extended := o.extended ++ [noteOf name v] }

/-- `PSCustomObject(**kwargs)`, /repo/src/psrpcore/types/_complex.py:76-84; _base.py:565-579. `c` are the lists of the class, `cls` what
Python finds on it. `cls` and `self` are names of parameters of `__new__` and `__init__`, so that Python refuses them as keywords. -/
def customObject (text : Option V → PyStr) (c : PsClass V) (cls : PyStr → Option (ClassAttr V)) (kwargs : Dict PyStr (Option V)) :
    Except Err (PsObj V) :=
  if kwargs.contains (txt! "cls") then .error .typeError
  else if kwargs.contains (txt! "self") then .error .typeError
  else .ok (bagLoop text kwargs (c.instance cls))

/-- The loop over the keyword arguments, /repo/src/psrpcore/_payload.py:296-297. -/
def notesLoop : List (PyStr × Option V) → PsObj V → Except Err (PsObj V)
  | [], o => .ok o
  | (name, v) :: rest, o =>
    match o.addMember (noteOf name v) false with
    | (o, .ok ()) => notesLoop rest o
    | (_, .error e) => .error e

/-- `dict_to_psobject(**kwargs)`, /repo/src/psrpcore/_payload.py:292-299. `c` are the lists of `PSObject`. -/
def dictToPsobject (c : PsClass V) (cls : PyStr → Option (ClassAttr V)) (kwargs : Dict PyStr (Option V)) : Except Err (PsObj V) :=
  notesLoop kwargs { c.instance cls with typeNames := [] }

/-- The lists of `PSCustomObject` when nothing was added to it, /repo/src/psrpcore/types/_complex.py:52; _base.py:559-563. -/
def customClass : PsClass V := { typeNames := [txt! "System.Management.Automation.PSCustomObject", txt! "System.Object"] }

/-- The lists of `PSObject` when nothing was added to it, /repo/src/psrpcore/types/_base.py:559-563. -/
def objectClass : PsClass V := { typeNames := [txt! "System.Object"] }

end Verif
