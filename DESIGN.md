# Formal model of MachUp_Py in Lean 4

Scope: `/repo/machup/{geometry,llgrid,llmodel,MU,propmodel,propssolver,outputstl,helpers}.py` at the pinned commit.
Everything lives in `/verif/lean/Verif/`; `lake build` in `/verif/lean` checks it.

## Layout

| part of the code | model | theorems |
|---|---|---|
| vectors (numpy 3-vectors), exceptions and state | `Base/V3.lean`, `Base/Py.lean` | – |
| `geometry.py`: `Airplane`, `Wing`, `WingSegment`, `Airfoil`, `Prop` built through the API | `Model/Geometry.lean` | `Thm/GeometryBuild`, `Thm/GeometryPos`, `Thm/WingCalls`, `Thm/WingShape`, `Thm/WingRejected`, `Thm/WingConnect`, `Thm/PropCalls`, `Thm/PropRot` |
| `geometry.py`: `Airplane(inputfile=...)` | `Model/InputFile.lean` | `Thm/InputFile` |
| `llgrid.py`: `LLGrid` | `Model/Grid.lean`, `Model/GridGet.lean` (getters) | `Thm/Grid`, `Thm/GridGet`, `Thm/GridExists`, `Thm/GridCalls`, `Thm/CutWing` (specification `Spec/CutWing`), `Thm/Flap`, `Thm/FlapSection`, `Thm/Symmetric` |
| `llmodel.py`: kernel of `solve('linear')` | `Model/LL.lean` | `Thm/BiotSavart`, `Thm/LLKernel`, `Thm/LLEquation`, `Thm/LLScaling`, `Thm/LLRotation`, `Thm/LLSections`, `Thm/LLConditions`, `Thm/LLControls`, `Thm/StraightWing`, `Thm/StraightDrag`, `Thm/Continuity` (specification `Spec/FlightCond`); with the geometry: `Thm/PlaneSimilar`, `Thm/PlanePlaced`, `Thm/PlaneMirror`, `Thm/PlaneOrder` |
| `llmodel.py`: the object, its state between calls | `Model/LLState.lean`, `Model/Stall.lean` | `Thm/LLState`, `Thm/Stall` |
| `MU.py`: `__init__` | `Model/MUInit.lean` | `Thm/MUInit` |
| what constructing an analysis does to the aircraft, and what the aircraft does to an analysis afterwards | `Model/MUPlane.lean`, `Model/Session.lean` | `Thm/PlaneAfter`, `Thm/Session` |
| `MU.py`: `solve`, derivatives, `stall_onset`, `stall_airspeed`, `target_lift`, `pitch_trim` | `Model/MU.lean` | `Thm/MU*.lean` |
| all methods of `MU.py` as calls, and histories of calls | `Model/MUCalls.lean` | `Thm/MUHistory` (with `Lemmas/Memory`, `Lemmas/Steps`), `Thm/Omitted`, `Thm/Incomplete`, `Thm/Decoupled` (specification `Spec/Decoupled`), `Thm/Wake` (specification `Spec/Wake`), `Thm/Halves`, `Thm/Rename` (with `Lemmas/Relabel`, `Lemmas/Halves`; specifications `Spec/Halves`, `Spec/Rename`), `Thm/CgFree` (with `Lemmas/Paired`; specifications `Spec/Omitted`, `Spec/Incomplete`, `Spec/CgFree`) |
| `MU.py`: `find_aero_center` | `Model/AeroCenter.lean` | `Thm/AeroCenter` |
| `MU.py`: `distributions` with its file | `Model/Distrib.lean` | `Thm/Distrib`, `Thm/DistribFile`, `Thm/DistribRows`, `Thm/DistribAligned` |
| the solvers plugged into `MachUp` | `Model/MachUp.lean`, `Model/MachUpFull.lean` | `Thm/MUFull`, `Thm/MUScaling`, `Thm/MUAirspeed`, `Thm/Slopes` (specification `Spec/Slopes`), `Thm/Searches` (specification `Spec/Similar`, with `Lemmas/Follow`, `Lemmas/FollowSim`), `Thm/MirrorCalls` (specification `Spec/MirrorCalls`, with `Lemmas/FollowMir`), `Thm/ControlSlopes` (specification `Spec/ControlSlopes`, with `Lemmas/ControlSlopes`), `Thm/PropEnds` (specification `Spec/PropEnds`, with `Lemmas/PropEnds`), `Thm/NoLift` (specification `Spec/NoLift`, with `Lemmas/NoLift` and `Lemmas/OneMore`), `Thm/DeadControl` (specification `Spec/DeadControl`, with `Lemmas/DeadControl`), `Thm/OutOfWay` (specification `Spec/OutOfWay`, with `Lemmas/OutOfWay`), `Thm/PropNames` (specification `Spec/PropNames`, with `Lemmas/PropNames` and `Lemmas/Imitate`), `Thm/PropGet` (specification `Spec/PropGet`), `Thm/FlatControl` (specification `Spec/FlatControl`), `Thm/Placed` (specification `Spec/Placed`), `Thm/Waits` (specification `Spec/Waits`), `Thm/PropKeys` (specification `Spec/PropKeys`), `Thm/PropKeysDistrib`, `Thm/DeadDistrib`, `Thm/WaitsDistrib` |
| `propmodel.py`: constructor | `Model/PropGeom.lean` | `Thm/PropBlade`, `Thm/Blade` |
| `propmodel.py`: analysis, slipstream; `propssolver.py` | `Model/PropSolve.lean` | `Thm/PropState`, `Thm/PropHistory`, `Thm/PropMemory`, `Thm/PropReads`, `Thm/PropReadsCalls` (specification `Spec/PropReads`, with `Lemmas/PropReads`, `Lemmas/Again`), `Thm/PropScaling`, `Thm/PropElement`, `Thm/PropStall`, `Thm/PropInduced`, `Thm/Slipstream`, `Thm/SlipVelocity` |
| `propmodel.py`: getters | `Model/PropGet.lean` | `Thm/PropGet` |
| `propmodel.py`: the wash at arbitrary points | `Model/Propwash.lean` | `Thm/Propwash` |
| `propmodel.py`: the viscous slipstream | `Model/Goates.lean` (specification: `Spec/Jet.lean`, integrals: `Lemmas/Jet.lean`) | `Thm/Goates` |
| `MU.py`: `create_stl` | `Model/StlCall.lean` | `Thm/StlCall` |
| `outputstl.py` | `Model/Stl.lean` | `Thm/Stl`, `Thm/StlGeom`, `Thm/Naca` (specifications `Spec/Stl`, `Spec/Naca`) |

`Examples/*.lean` holds the concrete planes, propellers and solvers that show that hypotheses are met; `Lemmas/*.lean` the proofs in
between. All paths are below `lean/Verif/`.

`Verif/Spec/*.lean` holds the vocabulary the property theorems are stated in (mirror image, Biot-Savart integral,
partition of a range, ...). It never refers to helper lemmas of the model.

## Modelling decisions

* **Numbers.** Every float is an exact real number (`ℝ`). IEEE rounding, overflow and `-0.0` are not modelled.
  `np.sin/cos/tan/arctan/arccos/arctan2/sqrt/exp/tanh` are Mathlib's real functions (`arctan2 y x` is `Complex.arg (x + y i)`).
* **Division by zero / NaN.** Lean's `x / 0 = 0` is never relied on: a computation in which numpy would divide by zero (and
  produce `nan`/`inf`) is a separate outcome in the model (`none`, `Err.nonfinite` or an explicit well-formedness predicate), and
  theorems either have that predicate as a hypothesis or talk about the successful outcome only.
* **Exceptions are values.** `raise` becomes `Except.error`; the kind of exception is kept (`RuntimeError`, `KeyError`, ...).
  State mutated before the raise is returned together with the error.
* **Objects and dictionaries.** Objects are records; mutation is state passing. A Python dictionary argument is a record of
  optional entries, and a function that mutates its caller's dictionary returns the new dictionary. Truthiness (`if aero_state:`)
  is modelled: an empty dictionary counts as missing.
* **`while True` loops** are step functions iterated on fuel; "the loop returns r" means "for some number of steps it returns r",
  and non-termination is "for no number of steps". That the number is immaterial, for all methods and sequences of calls, is C152.
* **External numerical routines**: `np.linalg.solve`/`inv` are matrix inversion, with an error outcome for a singular matrix.
  `scipy.integrate.simps`, cubic `interp1d` and file readers are parameters of the model (nothing is assumed about them unless a
  theorem says so).
* `LLModel._machup_compare` is a private constant `True`; only that branch is modelled.

## Conventions per part

* **Geometry.** Wing objects live in an append-only heap, so that a wing that was replaced in the dictionary still exists for the wings
  that point to it. Endless recursion (a wing connected to itself) is the outcome `.recursion`.
* **Input files** are given as the tree `json.load` returns.
* **Lifting line.** The arrays are functions on a finite index type. `nan`/`inf` is a separate outcome.
* **`MU.py`.** Methods are actions on a `World`: solver objects, the caller's two dictionaries, the dictionaries handed out, the files
  written. The theorems of `MU*.lean` hold for *every* pair of solvers (`Backend`); `wingsBackend` and `fullBackend` are the actual ones.
  In `fullBackend`, what a `solve` with a `nan` angle of attack does is the parameter `bad`.
* **`stall_onset`** steps the angle of attack by exactly 0.1; the code accumulates floats. `find_aero_center` uses exactly the 400 angles
  that `np.arange` gives in exact arithmetic.
* **C52**: the item access on a number in `stall_airspeed` is modelled as `AttributeError` (a numpy number would raise `IndexError`).
* **`MUInit`.** A division by zero is `.nonfinite` for all number types (for Python numbers the code raises `ZeroDivisionError`).
* **Propellers.** Blade arrays are functions of the node number. `np.empty_like` arrays take their contents from a stream of arbitrary
  memory contents that is part of the state. Tables read from files and `simps` are parameters.
* **STL.** `float()` on one or two characters is the parameter `flt`; a facet is written in one step.
* **`distributions`.** Printing a number (`%20.12e`) is a parameter; names are ASCII without carriage returns, so that one character is one
  byte. The append handle is CPython's buffered writer; it is flushed when the call returns (reference counting).

## Not modelled

* Floating point rounding; numpy array dtype/shape errors; recursion limit; memory; printing; matplotlib.
* JSON text syntax of input files (they are modelled after parsing), and number formatting in output files.
* The JSON text of the files other than that of `distributions` (a written file is a record of what was written).
* The Fourier fit (`propmodel.py` 586-613) and the efficiency (423-425), which `solve` never reads. The viscous slipstream (718-1260) is modelled although nothing calls it; its root finder, Runge-Kutta stepper and cubic interpolation are parameters.
* A nonlinear solver: `llmodel.py` has none; every `stype` but `'linear'` raises `RuntimeError`, as modelled.
* `helpers.check_valid_filepath` beyond "raises or not".

## Trusted base

Lean's kernel; Mathlib (checked by the same kernel); the axioms `propext`, `Classical.choice`, `Quot.sound` that Mathlib's reals use;
and the reading of the Python code that the model's comments document. No axioms are added, no `sorry`, no `native_decide`.

## Plan per property

| id | how it is modelled and proved |
|---|---|
| C01 | heap of wing objects + insertion-ordered dict; invariant by induction over the list of operations |
| C02 | positions resolved through parent pointers; induction on the attachment chain; the chain is specified by the calls made (`ConnectedBy`) and shown to be the one stored |
| C03 | invariant "parent created before child" gives termination; negation witness for a wing connected to itself; `_partial` |
| C04 | induction on the chain with the mirror map |
| C05 | state machine for `cg_location`; negation witness for 0; `_partial` |
| C06 | case analysis on the mix dictionary |
| C07 | file records → API call list; simulation proof by induction over the wing list |
| C08 | constructor outcome; negation for every API-built plane with a propeller; `_partial` |
| C09 | monotonicity of cosine on [0, π], all n |
| C10 | vector algebra |
| C11 | telescoping sums, all n |
| C12 | trigonometric identities |
| C13 | convexity of interpolation |
| C14 | interval integral + telescoping sum |
| C15 | case analysis; effectiveness and moment of the code are integrated out of thin airfoil theory (`Spec/Flap`) |
| C16 | array writes modelled as slice writes; induction on the segment list |
| C17 | bounds on θ - sin θ and on the hinge efficiency, applied to the sections of any built aircraft |
| C18 | state machine; result shown independent of the state component by component |
| C19, C20, C21 | negation witnesses with concrete states + `_partial` for what holds |
| C22, C23 | vector algebra |
| C24, C25, C28, C30, C31 | equivariance of every intermediate quantity, uniqueness of the linear solution |
| C26, C29 | same, with mirror map / re-indexing |
| C26, C29, C30, C31 (`_plane`) | lifted to the calls that build the aircraft: a relation between the two aircraft is preserved by every call (enlarged, displaced, mirrored, or with two `add_wing` calls exchanged), and related aircraft have corresponding grids |
| C27 | C26 + C29 + C04 |
| C32, C33 | matrix inverse |
| C34 | vector algebra |
| C35, C36 | fundamental theorem of calculus with explicit antiderivatives (improper integral for the trailing legs) |
| C37 | state machine + negation witness; `_partial` |
| C38 | list search |
| C39-C41 | MachUp.solve as a state machine |
| C42-C45 | symbolic execution of the derivative functions for an arbitrary solver |
| C46, C47 | induction on loop iterations; termination iff; non-termination witness |
| C48 | symbolic execution, witnesses; `_partial` |
| C49, C50 | loop invariants for an arbitrary solver; exactness for affine responses |
| C51-C54 | outcome computed for all models; `_partial` for the branches that work |
| C55 | algebra |
| C56 | C24 + C25 pushed through the derivative functions |
| C57 | normal equations, matrix algebra over arbitrary samples |
| C58 | case analysis |
| C59-C64 | prop state machine, algebra |
| C65-C67 | case analysis on the piecewise definitions, uninitialised memory as `none` |
| C68, C69 | case analysis; induction over radial nodes |
| C70 | tangent subtraction formula |
| C71 | algebra |
| C72 | arithmetic of nested strides; bijection |
| C73, C74, C79 | polynomial identities, induction on the number of blades |
| C75 | fold over segments with the Python variable `left_NACA` as state |
| C76 | derivative of the camber line vs. the slope used |
| C77 | buffered writer of any size (at least one line); JSON grammar as an inductive predicate; negation for every plane with propellers; `_partial` |
| C78 | C70 |
| C80 | model of the table rows; negation for `Alpha(deg)` of wings; `_partial` for the others |
| C81 | rotation of the whole configuration: equivariance of every intermediate quantity |
| C82 | existence of the grid for well-formed planes; well-formedness is a condition on the calls (`WellFormedCalls`), tied to the plane by C92 |
| C83, C84 | formulas per section, sums; negation witness for C84 |
| C85 | secant method on a parabola: error factors multiply |
| C86 | the stored rate only enters the power and motor branches; negation: a rejected request and a default analysis at rest both leave rate zero, from which the secant cannot start; `_partial` for the other branches |
| C87, C88 | two runs with different memory contents; a successful run is monotone in the memory contents (`nan` below every number), by induction over the loops, and through all methods of a `MachUp` object and sequences of them (`Lemmas/Again`); witness on the axis, and off the axis the division by the distance is the only one left (C69) |
| C89, C90 | as C77; injectivity of the padded name |
| C91 | loop invariant of the secant iteration: what holds when it stops |
| C92 | induction over the calls that follow: a property of a wing object is kept by every call that is not a successful call on that object; which keyword sets are accepted is specified separately |
| C93 | negation: the documented keyword is ignored, whatever is passed; `_partial` for the keyword the code reads |
| C94 | negation: unknown parent name; `_partial` for the calls that check before they change anything |
| C95 | induction over the calls (as C92), then the position formula of a segment split into root and tip offset |
| C96 | displacement theorem C30 composed with the CG transfer theorem C28; negation with a one-panel-per-side wing |
| C97 | induction over the calls, as C92 |
| C98 | negation with the value 0; `_partial` for the other documented values |
| C99 | what `PropModel.__init__` writes to the aircraft is modelled as `planeAfter`; construction commutes with it; negation with a later `airfoil` call |
| C100 | the methods of an object as a function of the aircraft it looks at now; they depend on it through three observations only (CG, any wings, any propellers); negation with one wing |
| C101 | rows read back by caption, position by position, against the grid, the section coefficients of C83 and the blade stations; sums of the force columns; captions and columns of the file at the same offsets |
| C102 | runs of an analysis with and without a file name compared step by step (`AddsAt`), closed under everything the analyses are made of; the two calls that fail are C51 and C54 |
| C103 | stations, chords and interpolation described from the propeller description alone (`Spec/Blade`); sorting by position is the only step of the code that the description does not mention, and the interpolation is unique |
| C104 | the flow and the deflections are described from the dictionary entries alone (`Spec/LLConditions`) and tied to the solution by C32 and C83; C15 gives the deflections of a built aircraft |
| C105 | blade elements are described in physical units (`Spec/PropElement`); the dimensionless integrals of the code are scaled to them with a quadrature rule that is homogeneous in ordinates and abscissae (Simpson's is; an example shows it) |
| C106, C107 | the constants of the post-stall curves solve the matching conditions; continuity of both pieces at the stall angle; a numeric witness with sine and cosine bounds |
| C108 | induction over the passes of the secant iteration: the last two residuals are evaluations of the balance; refuted with the first analysis of a propeller |
| C116 | shaft power minus thrust power of a blade element is lift times induced velocity plus drag times speed; the balance of C108 gives the lift the sign of the induced angle; summed by any additive, positive quadrature rule |
| C117 | reflection in the plane y = 0 commutes with every step of a propeller run (coefficients invariant, force reflected, moment reflected and negated) and of the slipstream; with C26 for the wings, the solves of any sequence are related step by step |
| C118 | the calls about one propeller determine its entry in the dictionary, the other calls the rest of the aircraft; so both aircraft have the same propellers up to order, both objects the same propeller models up to order; forces and velocity fields are sums; a relation between the two objects that every successful analysis step preserves |
| C119 | exchanging the propellers of each pair turns the object into its mirror image (C117) and only reorders its propellers (C118); both relations are kept by every solve, so the loads equal their mirror images; refuted with different uninitialised memory for the two propellers |
| C120 | a relation between two objects that differ by a scale and a CG offset, kept by every solve (propellers, slipstream, wings); here with scale one |
| C121 | `_set_prop_state` leaves the same rotation rate and advance ratio for equivalent states; the rest of the analysis only sees these |
| C122 | the enlarged calls build the enlarged aircraft; its grid, blade arrays and reference lengths are the scaled ones; the relation of C120 with scale factors is kept by every solve |
| C123 | a relation between the two objects (flow and control dictionaries, propeller states) is kept by every step of the derivative calls; each perturbed solve is C122, and each quotient by dynamic pressure, area and length is the same |
| C124 | the copy of Stone's slipstream for arbitrary points is modelled on its own; same proof as C109 with another core; the example propeller shows the difference |
| C125 | the equations handed to the root finder are compared with integrals over the cross-section (Gaussian integrals, piecewise polynomials); induction over the stations and over the equivalent jets |
| C126 | case distinction on the cone; the routine's result for a propeller with another sense of rotation is shown to be the same; a point ahead of the disc gives the exception |
| C127 | the relation of C120 with a displacement of all points instead of a scale: it is kept by every solve and by every step of the derivative calls; the displaced calls build the displaced aircraft |
| C128 | for sections on one line the influence of trailing vortices is a telescoping sum of a monotone function, so the matrix has no positive entry off the diagonal and positive row sums; such a matrix is regular and its inverse has no negative entry. The grid of a straight wing is shown to consist of such sections. For rotating aircraft (`Thm/StraightTurn`) only the solvability carries over |
| C129 | for evenly laid out sections the matrix weighted with the section widths is also symmetric, hence positive semidefinite; induced drag is its quadratic form in the circulations |
| C130 | the two histories of calls keep a relation between the aircraft (wing object `N` in one, `N` and `N+1` in the other); positions by induction over the chain of connections, panel by panel equality of all section quantities, and the solver depends on the panels only |
| C131 | a class of functions closed under the operations of the solver (sums, products, quotients, roots, arctan2 off its cut, solving the linear system by Cramer's rule), instantiated with continuity at a point; the whole `solve` is shown to stay in the class |
| C132 | the same class instantiated with differentiability, then the mean value theorem for the central differences of C42 and C43 |
| C133 | two sessions in lockstep: a relation between worlds (same solver state up to the stored rates, dictionaries that differ by explicit zeros) preserved by every step of every method; negation for `target_lift` |
| C134 | every method makes a `solve` before it answers, and the dictionary is still incomplete at that `solve`: two combinators ("raises", "passes on the incomplete state") along the code of each method |
| C135 | reading of a dictionary with string keys; the documented one is incomplete in the sense of C134; the spelling of the examples is accepted by C128 |
| C136 | two analysers in lockstep (`Lemmas/Paired`: a relation between the worlds of two back ends, preserved by every method that only reads forces through the solver); the loads differ by the moment transfer `-δ × F`, which passes through difference quotients linearly and cancels in the fit of the aerodynamic centre |
| C137 | the perturbed states of a central difference are mirror images of each other (sideslip, roll, yaw, aileron, rudder) or of themselves (the others); the mirror theorem of the solver (C26) turns this into equal or opposite loads, which cancel in the difference |
| C138 | invariant between the two aircraft through all later calls: one object has become two, later objects are renumbered, dictionaries correspond entry by entry; positions agree by induction on the depth of connections, so the segments give the same sections; then the similarity machinery of C127 with no displacement |
| C139 | the same with an entry-by-entry correspondence of objects |
| C140 | witness for every number of sections of the canard and every odd number of the wing; the vortices are avoided by comparing y coordinates; otherwise case distinction over the linear system; `_partial` |
| C141 (and the `_calls` theorems of C127, C138, C139) | lockstep simulation of two aircraft at any two sizes (`Lemmas/Follow`): if one solve obeys a similarity law, so does every step of every search; the aircraft of C122, C127, C138 and C139 are instances; induction over the calls |
| C142 | instance of the lockstep simulation of C141 for all methods but the derivatives; the derivatives from C42, C43, C44 for both aircraft, whose solves are mirrored in pairs |
| C143 | the class of differentiable functions of C132 at settings other than the given one, continuity at it, and the mean value theorem on either side, for the central differences of C44 |
| C144 | loops on fuel: monotonicity in the fuel by induction; the pass counter bounds the search for two nodes; a memory content for which every pass returns to the starting angles, by induction over the passes |
| C145 | the rows of sections without lift slope are diagonal with zero right-hand side, so the system without them has the same solution; the grid of an aircraft with one more wing begins with the grid of the aircraft |
| C146 | the calls that build the aircraft leave the share of such a control 0 in every segment, hence in every section; the methods, `distributions` among them (`Thm/DeadDistrib`), in lockstep with different entries of such controls |
| C147 | at a missed point the slipstream velocity is the freestream the wings compute for themselves, so the three analyses run in lockstep; induction over the calls |
| C148 | the names are carried through the calls that build the aircraft and through the loop over the propellers; the two objects then imitate each other (`Lemmas/Imitate`: a relation between the states of two back ends, kept by every method); refuted with a propeller called "J" |
| C149 | the getters as a record (`Model/PropGet`); the description from C103, the triangle from C59 and the bound on the induced angle (C67); refuted with a clockwise propeller |
| C150 | invariant of the calls that build an aircraft: every surface the control moves has zero chord; flap effectiveness and moment slope of zero chord are 0, so the deflection leaves right-hand side and moments as they are; refuted with the drag of a wing of two sections |
| C151 | relation between the two aircraft (same wing objects up to parent, location, position and yoffset) kept by all later calls; strong induction over the parents: all positions agree once those of the one wing do; so the grid and the object are equal |
| C152 | simulation between the object with a bound and with a larger one: outcomes other than "still running" are kept by every construct, so by all methods and sequences of calls (`Lemmas/Waits`, `Lemmas/WaitsProp`) |
| C153 | the solver objects with the two `prop_state`s do the same in lockstep; the names of the propellers are an invariant |
| C115 | discrete Stokes theorem: antisymmetric sums over all edges of a surface reduce to its rim; the sum of edge vectors in the plane of the first outline is the trailing-edge gap, not 0; facing from the triple product with the section frame |
| C114 | spanwise coordinate of a drawn point is that of its control point (frames of C12 are orthogonal to the span direction), strictly inside the section (C09); so no corner in the plane of an end; refuted on a straight wing |
| C113 | right-hand side affine in the deflections below 11 degrees, so the vortex strengths are, and forces are products of strengths and induced velocities |
| C112 | two runs in lock step on objects with different solver states (`Lemmas/Memory`): the lifting-line solve overwrites all state it reads when both dictionaries are given; histories by induction over the calls |
| C111 | no step of an analysis (`Lemmas/Steps`) changes a propeller model except its CG, which is not drawn; then C72; frame from the effects of `solve`;  refuted on an aircraft without parts |
| C110 | section data of `mkGrid` read through models of the getters (`Model/GridGet.lean`); refuted on a wing with a rough tip |
| C109 | C69, interpolation on the increasing tube radii, vector algebra about the axis |

## Where the code and the properties disagree

Each of these is proved as a theorem ending in `_refuted` (or named in the note of `MANIFEST.json`), with a concrete witness or for all planes.

| id | what the code does | where |
|---|---|---|
| C03 | a wing connected to its own name makes position queries recurse forever | `geometry.py` `_get_*_tip_pos` |
| C05 | `cg_location(x=0)` keeps the old coordinate (truth test instead of `is not None`) | `geometry.py` `cg_location` |
| C07 | an input file in which a wing names its own ID as parent is accepted | `geometry.py:74-245` |
| C08 | every plane with a propeller built through the API is rejected by `MachUp` | `MU.py:__init__`, `propmodel.py` |
| C19, C20 | omitted states mean the state of the previous solve in parts | `llmodel.py` `_process_*` |
| C21 | `LLModel.solve` returns its own dictionary, which the next solve changes | `llmodel.py` `solve` |
| C37 | an unsupported `stype` is rejected only after the stored flow was overwritten | `llmodel.py` `solve` |
| C40, C41 | `solve` of a plane with wings and propellers adds `local_state` to the caller's dictionary; other planes then ignore `V_mag` and `rho` | `MU.py:147-190` |
| C43 | `damping_derivatives` puts the pitch rate back into `yaw_rate` | `MU.py` `_damping_derivatives` |
| C45 | an exception in an analysis leaves perturbed entries behind | `MU.py` derivative functions |
| C47 | `stall_onset` does not end if no section ever exceeds its maximum lift | `MU.py` `stall_onset` |
| C48 | `stall_onset` leaves the swept angle of attack in the caller's dictionary | `MU.py` `stall_onset` |
| C51, C102 | `pitch_trim` drops `error` and `filename` if a state is omitted | `MU.py` `pitch_trim` |
| C52, C53, C54, C102 | `stall_airspeed`, `control_derivatives`, `derivatives`, `solve(filename=...)` raise without `aero_state` | `MU.py` |
| C59 | at zero airspeed a given `J` is kept although `rot_per_sec` implies another one | `propmodel.py` |
| C62 | total thrust and torque are those of the last propeller | `propssolver.py:70-109` |
| C66, C87 | the lift coefficient at exactly zero angle of attack is uninitialised memory | `propmodel.py:1273-1324` |
| C67 | the starting angle leaves its range where pitch and advance angle are equal | `propmodel.py:377-425` |
| C75, C76, C78 | non-four-digit NACA names reuse the previous airfoil; the aft camber slope is wrong; blades are drawn with the aerodynamic pitch | `outputstl.py` |
| C77, C89 | the propeller table is still buffered when the JSON file is rewritten; without wings tables are appended to an old file | `MU.py:325-370` |
| C124 | `_find_propwash_velocities` starts its stream tubes at 0.01 of the first blade radius, the version for wing points at the blade radius itself: the same point gets different velocities | `propmodel.py:637`, `687` |
| C126 | `_find_propwash_velocities_Goates` raises `ValueError` (`np.amax` of an empty array) if no point is in the stream, and never multiplies the swirl by `_rot_dir` as Stone's version does. Two more oddities follow from the model: a point exactly at the end of the zone of flow establishment gets the axial velocity `-V`, and a point closer to the axis than 0.001 diameters likewise | `propmodel.py:743`, `941-945` |
| C119 | two mirrored propellers can be analysed with different uninitialised memory, which leaves a rolling moment in symmetric flow | `propmodel.py:427-465,1310-1330` |
| C116 | thrust power can exceed shaft power in a first analysis: the lift at zero angle of attack is uninitialised memory and the iteration accepts any imbalance | `propmodel.py:427-465,1310-1330` |
| C144 | the search for the induced angles may never end: its only bound on passes applies when at most two nodes still change, and the lift at zero angle of attack, where it starts, is uninitialised memory | `propmodel.py:427-451,1273-1300` |
| C148 | a propeller may be called like one of the entries of a `prop_state`; the entry is then taken for the state of that propeller | `propssolver.py:79-87` |
| C149 | `get_rotation_direction` is documented to return 0 for clockwise rotation and returns -1 | `propmodel.py:1385-1396` |
| C150 | the drag of a deflected control surface, 0.002 per degree, does not depend on its chord, so that one of zero chord has it too | `llmodel.py:534-547` |
| C115 | the surfaces are open: segment ends and blade ends are not covered, upper and lower side do not meet at the trailing edge | `outputstl.py:81-92,187-204,226` |
| C114 | wing segments are drawn between their first and last control points, not up to root and tip; a segment with one section is not drawn at all | `outputstl.py:28,79-92` |
| C111 | `create_stl` of an aircraft without wings and propellers prints that it wrote a file and writes none | `MU.py:207-214` |
| C80 | `Alpha(deg)` of the wing table is in radians | `MU.py:309` |
| C84 | the section lift coefficient leaves out the flap | `llmodel.py` `section_cl` |
| C86 | the secant iteration for power and throttle starts from the stored rotation rate; once that is zero, every power setting fails | `propmodel.py:341-373`, `479-541` |
| C93 | the documentation of `control_surface` names the keyword `is_sealed`, the constructor reads `sealed`: surfaces declared with `is_sealed=False` are computed as sealed | `geometry.py:649-650`, `1406` |
| C94 | `add_wing` stores the new wing before it looks up the parent name: with an unknown name it raises `KeyError`, but the wing stays in the aircraft (replacing an earlier wing of that name), unconnected and without the position of the aircraft | `geometry.py:302-312` |
| C96 | `Airplane(position=...)` displaces the wings but neither the CG nor the propellers | `geometry.py:408-430`, `1112-1121` |
| C98 | `rot_dir=0`, documented as clockwise, is treated as counter-clockwise | `geometry.py:331`, `1187-1192` |
| C99 | constructing an analysis adds the default airfoil to a propeller of the aircraft that has none; an `airfoil` call afterwards makes two, and the next construction raises `RuntimeError` | `propmodel.py:78-80`, `99-100` |
| C100 | a `MachUp` object looks at the live `Airplane`: a propeller (wing) added later to an aircraft that had none makes every `solve` raise `AttributeError`, a later `cg_location` changes the moments | `MU.py:152`, `157`, `llgrid.py:424`, `propmodel.py:40` |
| C107 | drag of a symmetric blade section stalls earlier at negative angles of attack | `propmodel.py:254` |
| C108 | the induced-angle iteration ends when the imbalance stops changing, not when it is small | `propmodel.py:437-445` |
| C88 | points on the axis behind a propeller get `nan` | `propmodel.py:282-299` |
| C110 | `LLGrid.get_drag_coefficients` returns the left end's drag coefficients for every section (only used by code that is switched off) | `llgrid.py:523-525` |
| C90 | names are cut to 18 characters | `MU.py:282`, `335` |
| C133 | `target_lift` raises `KeyError` if `alpha` is left out of the `aero_state`; every other method reads 0 | `MU.py:1126` |
| C135 | the documentation of all methods names the airspeed key `v_mag`, the code reads `V_mag`; the documented dictionary makes every method raise `RuntimeError` (or `KeyError`) | `MU.py:110`, `225`, `382`, `527`, `605`, `697`, `764`, `850`, `960`, `1085`, `1188`, `llmodel.py:186-187` |
| C140 | a trailing vortex of one wing can pass through a control point of a wing behind it; the division by zero makes all loads `nan`, without an exception | `llmodel.py:311-335` |
