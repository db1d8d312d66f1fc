import Mathlib.Data.List.Basic
/-
Lifetimes of the inspected objects in a Python program.

Every inspector class is bound with `pybind11::init< const Mesh& >()` (bindings/python/src/inspection/surface_inspector.hpp:45,
solid_inspector.hpp:43, section_inspector.hpp:45, brep_inspector.hpp:43 and the criteria: 36 constructors) without
`pybind11::keep_alive`, and keeps a C++ reference to the object it inspects
(e.g. src/geode/inspector/inspection/criterion/adjacency/surface_adjacency.cpp:114).  The functions `inspect_surface3D`, ...
build an inspector and use it in the same call (bindings/python/src/inspection/surface_inspector.hpp:48-55).
Simplifications: variables hold meshes (or models) and inspectors only; there is no other reference to them, and CPython
destroys an object when its last reference goes.
-/
namespace Inspector

/-- A Python object: something to inspect, or an inspector with the object it refers to. -/
inductive PyObject where
  | mesh
  | inspector (inspected : Nat)
deriving DecidableEq, Repr

/-- A statement of a Python program; variables are numbered. -/
inductive PyStatement where
  /-- `x = TriangulatedSurface3D.create()`, a loaded mesh or model, ... -/
  | newMesh (x : Nat)
  /-- `x = SurfaceMeshInspector3D( y )` -/
  | newInspector (x y : Nat)
  /-- `x = y` -/
  | assign (x y : Nat)
  /-- `del x`, or the end of the function of which `x` is a variable -/
  | del (x : Nat)
  /-- `x.inspect_surface()`, or any method of an inspector -/
  | inspect (x : Nat)
  /-- `inspect_surface3D( y )` -/
  | inspectOnce (y : Nat)
deriving DecidableEq, Repr

/-- State of a Python program. -/
structure PyState where
  /-- the objects ever created -/
  objects : List PyObject := []
  /-- variables and the objects they name, each variable once -/
  names : List (Nat × Nat) := []
  /-- the object inspected by the last inspection -/
  inspected : Option Nat := none
  /-- an object has been read after its destruction -/
  undefined : Bool := false
deriving DecidableEq, Repr

/-- The variable names this object. -/
def PyState.bind (s : PyState) (x o : Nat) : List (Nat × Nat) := (x, o) :: s.names.filter fun e => e.1 != x

/-- Does something keep this object alive: a variable, or, if constructors had `keep_alive< 1, 2 >`, an inspector named by a
variable. -/
def PyState.alive (keepAlive : Bool) (s : PyState) (o : Nat) : Bool :=
  s.names.any fun e => e.2 == o || (keepAlive && s.objects[e.2]? == some (.inspector o))

/-- One statement.  Statements on variables without value, or of the wrong kind, raise a Python exception and change nothing.
`keepAlive` is whether the constructors are bound with `keep_alive< 1, 2 >`.
bindings/python/src/inspection/surface_inspector.hpp:38-55. -/
def PyState.step (keepAlive : Bool) (s : PyState) : PyStatement → PyState
  | .newMesh x => { s with objects := s.objects ++ [.mesh], names := s.bind x s.objects.length }
  | .newInspector x y =>
    match s.names.lookup y with
    | none => s
    | some o =>
      match s.objects[o]? with
      | some .mesh => { s with objects := s.objects ++ [.inspector o], names := s.bind x s.objects.length }
      | _ => s
  | .assign x y =>
    match s.names.lookup y with
    | none => s
    | some o => { s with names := s.bind x o }
  | .del x => { s with names := s.names.filter fun e => e.1 != x }
  | .inspect x =>
    match s.names.lookup x with
    | none => s
    | some o =>
      match s.objects[o]? with
      | some (.inspector mesh) =>
        { s with inspected := some mesh, undefined := s.undefined || !s.alive keepAlive mesh }
      | _ => s
  | .inspectOnce y =>
    match s.names.lookup y with
    | none => s
    | some o =>
      match s.objects[o]? with
      | some .mesh => { s with inspected := some o, undefined := s.undefined || !s.alive keepAlive o }
      | _ => s

/-- Execution of a program. -/
def runPython (keepAlive : Bool) (program : List PyStatement) : PyState := program.foldl (PyState.step keepAlive) {}

/-- The bindings: no constructor has `keep_alive` (bindings/python/src/inspection/surface_inspector.hpp:45,
solid_inspector.hpp:43, section_inspector.hpp:45, brep_inspector.hpp:43, ...). -/
def bindingsKeepAlive : Bool := false

end Inspector
