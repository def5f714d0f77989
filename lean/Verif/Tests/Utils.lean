import Verif.Props.Utils
/-
The tests of tests/test_utils.py, on the model.
-/
namespace OSK
open Utils

/-- A class with an abstract method `f`, and one that implements it (tests/test_utils.py:13-30); class 1 is `abc.ABC`. -/
def tAbstract : List Stmt := [⟨[], true, []⟩, ⟨[1], false, [(py! "f", .method true (.other 0))]⟩,
  ⟨[2], false, [(py! "f", .method false (.other 0))]⟩]

/-- A class with a static property, and one that overrides its method or not (tests/test_utils.py:46-84). -/
def tStatic (d : List (Str × Attr)) : List Stmt :=
  [⟨[], false, [(py! "f", .method false (.int 1)), (py! "p", .prop (py! "f"))]⟩, ⟨[1], false, d⟩]

/-- `C().p` and `C.p` -/
def bothWays (w : World) (c : Nat) (p : Str) : List (Except Err Got) := [getObjAttr w ⟨c, []⟩ p, getClassAttr w c p]

/-- tests/test_utils.py:6-10 -/
theorem C115_utils_is_abstract_not_abstract :
    (run start [⟨[], false, [(py! "f", .method false (.other 0))]⟩]).map (fun w => isAbstract w 1) = .ok false := by decide +kernel
/-- tests/test_utils.py:13-18 -/
theorem C115_utils_is_abstract_abstract : (run start tAbstract).map (fun w => isAbstract w 2) = .ok true := by decide +kernel
/-- tests/test_utils.py:21-30 -/
theorem C115_utils_is_abstract_concrete : (run start tAbstract).map (fun w => isAbstract w 3) = .ok false := by decide +kernel
/-- tests/test_utils.py:33-43 -/
theorem C115_utils_readonly_static_property_manual_get_call :
    (run start [⟨[], false, [(py! "f", .method false (.int 2))]⟩]).map (fun w =>
      [propGet w (py! "f") (some ⟨1, []⟩) none, propGet w (py! "f") none (some 1)]) = .ok [.ok (.int 2), .ok (.int 2)] := by decide +kernel
/-- tests/test_utils.py:46-54 -/
theorem C115_utils_readonly_static_property_same_class :
    (run start (tStatic [])).map (fun w => bothWays w 1 (py! "p")) = .ok [.ok (.value (.int 1)), .ok (.value (.int 1))] := by decide +kernel
/-- tests/test_utils.py:57-70 -/
theorem C115_utils_readonly_static_property_subclass_overrides :
    (run start (tStatic [(py! "f", .method false (.int 2))])).map (fun w => bothWays w 2 (py! "p")) =
      .ok [.ok (.value (.int 2)), .ok (.value (.int 2))] := by decide +kernel
/-- tests/test_utils.py:73-84 -/
theorem C115_utils_readonly_static_property_subclass_inherits :
    (run start (tStatic [])).map (fun w => bothWays w 2 (py! "p")) = .ok [.ok (.value (.int 1)), .ok (.value (.int 1))] := by decide +kernel

end OSK
