import Verif.Model.MachUpFull

/-!
# `MachUp.distributions` (`MU.py:216-372`)

The tables it returns and the bytes it leaves in the output file.

Simplifications: rows instead of column arrays; real numbers instead of doubles, so that printing a number (`%20.12e`) is a
parameter; one character is one byte.
-/

namespace Verif
open V3

/-! ### The tables -/

/-- one row of `wing_distributions` (`llmodel.py:609-624`, `MU.py:264-265`) -/
structure WingRow where
  name : String
  cp : V3
  chord : ℝ
  twist : ℝ
  dihedral : ℝ
  sweep : ℝ
  area : ℝ
  alpha : ℝ
  force : V3
  CL : ℝ
  Cm : ℝ
  CD : ℝ
  aL0 : ℝ
  CLref : ℝ

/-- `LLModel._distributions` and `section_CL_ref` at one section (`llmodel.py:609-624`, `MU.py:264-265`) -/
noncomputable def wingRow {ι : Type} (G : LLGeom ι) (long : ℝ) (R : Sol ι) (i : ι) : WingRow :=
  { name := (G.S i).name, cp := (G.S i).rcp, chord := (G.S i).chord, twist := (G.S i).twist, dihedral := (G.S i).dihedral
    sweep := (G.S i).sweep, area := (G.S i).area, alpha := R.alpha i, force := R.force i, CL := R.cl i, Cm := R.cm i
    CD := R.cd i, aL0 := (G.S i).al0, CLref := R.cl i * (G.S i).chord / long }

/-- `np.degrees` (`propssolver.py:190-193`) -/
noncomputable def degrees (x : ℝ) : ℝ := x * (180 / Real.pi)

/-- one row of `prop_distributions` (`propssolver.py:176-200`) -/
structure PropRow where
  name : String
  r : ℝ
  chord : ℝ
  pitch : ℝ
  advance : ℝ
  induced : ℝ
  alpha : ℝ
  CL : ℝ
  CD : ℝ
  Vi : ℝ
  Vx : ℝ
  Vt : ℝ

/-- the rows of one propeller at node `i` (`propssolver.py:181-198`, `propmodel.py:576-580`) -/
noncomputable def propRow {ι : Type} (name : String) (M : PropM ι) (o : PropOut) (i : ℕ) : PropRow :=
  { name, r := (M.stn i).r, chord := (M.stn i).cb, pitch := degrees (M.stn i).beta, advance := degrees (o.c.einf i)
    induced := degrees (o.c.ei i), alpha := degrees (o.c.alpha i), CL := o.c.CL i, CD := o.c.CD i
    Vi := viAt M o.n o.c i, Vx := vxiAt M o.n o.c i, Vt := vtiAt M o.n o.c i }

/-- `PropsSolver._distributions` (`propssolver.py:176-200`): the rows of the propellers one after the other; a propeller that
was never analysed has no `_rot_per_sec` -/
noncomputable def propRows {ι : Type} : List (PropSlot ι) → Except PyErr (List PropRow)
  | [] => .ok []
  | sl :: t =>
    match sl.out with
    | none => .error .attribute
    | some o => (propRows t).map fun rest => (List.range sl.model.nodes).map (propRow sl.name sl.model o) ++ rest

section
variable {n : ℕ} {G : LLGeom (Fin n)} {wings props : Bool} {simps : List ℝ → List ℝ → ℝ} {fuel : ℕ} {Sw lat long : ℝ}
  {bad : Act (LLState (Fin n) × List (PropSlot (Fin n))) (Option Loads)}

/-- the wing table after a `solve` (`MU.py:263-267`); `none` stands for the empty dictionary -/
noncomputable def wingTable (st : LLState (Fin n) × List (PropSlot (Fin n))) (G : LLGeom (Fin n)) (wings : Bool) (long : ℝ) :
    Except PyErr (Option (List WingRow)) := open Classical in
  if wings then
    match st.1.results with
    | none => .error .attribute
    | some R => if long = 0 then .error .nonfinite else .ok (some (List.ofFn fun i => wingRow G long R i))
  else .ok none

/-- the propeller table after a `solve` (`MU.py:269-272`); `none` stands for the empty dictionary -/
noncomputable def propTable (st : LLState (Fin n) × List (PropSlot (Fin n))) (props : Bool) : Except PyErr (Option (List PropRow)) :=
  if props then (propRows st.2).map some else .ok none

/-- `distributions(aero_state, control_state, prop_state)` without a filename (`MU.py:262-272`, `372`) -/
noncomputable def distributions (G : LLGeom (Fin n)) (wings props : Bool) (simps : List ℝ → List ℝ → ℝ) (fuel : ℕ)
    (Sw lat long : ℝ) (bad : Act (LLState (Fin n) × List (PropSlot (Fin n))) (Option Loads)) (ps : Option PropDict) :
    Act (World (fullBackend G wings props simps fuel Sw lat long bad)) (Option (List WingRow) × Option (List PropRow)) := do
  let _ ← muSolve (B := fullBackend G wings props simps fuel Sw lat long bad) ps
  let w ← Act.get
  let wt ← Act.lift (wingTable w.st G wings long)
  let pt ← Act.lift (propTable w.st props)
  return (wt, pt)

end

/-! ### Text -/

/-- `{:<k}`, `%-ks` (`MU.py:280`, `323`, `330`, `362`) -/
def padRight (k : ℕ) (t : List Char) : List Char := t ++ List.replicate (k - t.length) ' '
/-- `{:>k}` (`MU.py:280`, `330`) -/
def padLeft (k : ℕ) (t : List Char) : List Char := List.replicate (k - t.length) ' ' ++ t

/-- the captions of the wing table after `Name` (`MU.py:277-280`) -/
def wingCaptions : List String :=
  ["ControlPoint(x)", "ControlPoint(y)", "ControlPoint(z)", "Chord", "Twist(deg)", "Dihedral(deg)", "Sweep(deg)", "Area",
    "Alpha(deg)", "Force(x)", "Force(y)", "Force(z)", "SectionCL", "SectionCm", "SectionCDParasitic", "SectionAlpha_L0", "SectionCL_ref"]
/-- the columns under them (`MU.py:300-321`) -/
def WingRow.columns (r : WingRow) : List ℝ :=
  [r.cp.x, r.cp.y, r.cp.z, r.chord, r.twist, r.dihedral, r.sweep, r.area, r.alpha, r.force.x, r.force.y, r.force.z, r.CL, r.Cm,
    r.CD, r.aL0, r.CLref]
/-- the captions of the propeller table after `Name` (`MU.py:331-333`) -/
def propCaptions : List String :=
  ["RadialPosition", "Chord", "Pitch(deg)", "AdvangeAngle(deg)", "InducedAngle(deg)", "Alpha(deg)", "SectionCL", "SectionCD",
    "InducedVelocity,Vi", "Vi(Axial)", "Vi(Tangential)"]
/-- the columns under them (`MU.py:348-360`) -/
def PropRow.columns (r : PropRow) : List ℝ :=
  [r.r, r.chord, r.pitch, r.advance, r.induced, r.alpha, r.CL, r.CD, r.Vi, r.Vx, r.Vt]

/-- the line of captions (`MU.py:276-280`, `330-333`) -/
def captionLine (l : List String) : List Char := padRight 16 "Name".toList ++ l.flatMap fun s => padLeft 21 s.toList

/-- `wing_header` (`MU.py:280-283`) -/
def wingHeader : List Char := "WingDistributions \n".toList ++ captionLine wingCaptions
/-- `prop_header` (`MU.py:330-332`) -/
def propHeader : List Char := "\n\nPropellerDistributions \n".toList ++ captionLine propCaptions

/-- what `np.savetxt` writes for `header`: `comments + header.replace("\n", "\n" + comments) + newline`, with the default
`comments = "# "` (`MU.py:324`, `363`) -/
def headerText (h : List Char) : List Char := ['#', ' '] ++ (h.flatMap fun c => if c = '\n' then ['\n', '#', ' '] else [c]) ++ ['\n']

/-- what `np.savetxt` writes for a row with the formats of `MU.py:323`, `363`: the name, cut to the 18 characters of `U18`
(`MU.py:282`, `335`), and the numbers -/
def rowText (num : ℝ → List Char) (name : String) (cols : List ℝ) : List Char :=
  padRight 18 (name.toList.take 18) ++ (cols.flatMap fun x => ' ' :: num x) ++ ['\n']

/-- the pieces `np.savetxt` writes for the wing table: the header, then row by row (`MU.py:324`) -/
def wingPieces (num : ℝ → List Char) (t : List WingRow) : List (List Char) :=
  headerText wingHeader :: t.map fun r => rowText num r.name r.columns
/-- the pieces `np.savetxt` writes for the propeller table (`MU.py:363`) -/
def propPieces (num : ℝ → List Char) (t : List PropRow) : List (List Char) :=
  headerText propHeader :: t.map fun r => rowText num r.name r.columns

/-! ### The output file -/

/-- a file opened for appending with Python's buffered writer: what is in the file, and what waits in the buffer (`MU.py:327`, `363`, `365`) -/
structure OutFile where
  disk : List Char
  buf : List Char

/-- `write(s)` on a buffered writer with a buffer of `cap` bytes (CPython, `_io__BufferedWriter_write_impl`): what fits goes into
the buffer; otherwise the buffer is written to the file first, and what is longer than the whole buffer is written directly (`MU.py:363`) -/
def OutFile.write (cap : ℕ) (f : OutFile) (s : List Char) : OutFile :=
  if f.buf.length + s.length ≤ cap then ⟨f.disk, f.buf ++ s⟩
  else if s.length ≤ cap then ⟨f.disk ++ f.buf, s⟩
  else ⟨f.disk ++ f.buf ++ s, []⟩

/-- the `\uXXXX` digit (called by `json.dump`, `MU.py:370`) -/
def hexDigit (k : ℕ) : Char := if k < 10 then Char.ofNat (48 + k) else Char.ofNat (87 + k)
/-- `'\\u{0:04x}'.format(v)` for `v < 65536` (called by `json.dump`, `MU.py:370`) -/
def uEscape (v : ℕ) : List Char :=
  ['\\', 'u', hexDigit (v / 4096 % 16), hexDigit (v / 256 % 16), hexDigit (v / 16 % 16), hexDigit (v % 16)]

/-- one character in `json.dumps` of a string (`json.encoder.py_encode_basestring_ascii`) -/
def escapeChar (c : Char) : List Char :=
  if c = '\\' then ['\\', '\\']
  else if c = '"' then ['\\', '"']
  else if c = Char.ofNat 8 then ['\\', 'b']
  else if c = Char.ofNat 12 then ['\\', 'f']
  else if c = '\n' then ['\\', 'n']
  else if c = '\r' then ['\\', 'r']
  else if c = '\t' then ['\\', 't']
  else if 32 ≤ c.toNat ∧ c.toNat ≤ 126 then [c]
  else if c.toNat < 65536 then uEscape c.toNat
  else uEscape (0xD800 + (c.toNat - 65536) / 1024) ++ uEscape (0xDC00 + (c.toNat - 65536) % 1024)

/-- `json.dump({"data": data}, outfile, indent=4)` (`MU.py:367-370`) -/
def jsonData (data : List Char) : List Char :=
  "{\n    \"data\": \"".toList ++ data.flatMap escapeChar ++ "\"\n}".toList

/-- `data.replace("\n", "newline")` (`MU.py:368`) -/
def replaceNewlines (t : List Char) : List Char := t.flatMap fun c => if c = '\n' then "newline".toList else [c]

/-- the file after the wing table was written by `np.savetxt(filename)`, which empties and closes it (`MU.py:275-324`) -/
def afterWings (num : ℝ → List Char) (old : Option (List Char)) : Option (List WingRow) → Option (List Char)
  | some t => some (wingPieces num t).flatten
  | none => old

/-- the bytes in the file after `distributions(..., filename)` has returned (`MU.py:274-370`); `old` is what was in the file
before (`none`: no such file).  The propeller table goes to a handle that is opened for appending and not closed: its buffer is written when the handle is freed, at
the end of the call, at what is the end of the file then.  In between, for a name ending in `json`, the file is read and
rewritten (`FileNotFoundError`, here `.key`, if there is none).  An empty `filename` counts as none. -/
def distributionsFile (num : ℝ → List Char) (cap : ℕ) (filename : String) (old : Option (List Char))
    (wings : Option (List WingRow)) (props : Option (List PropRow)) : Except PyErr (Option (List Char)) :=
  if filename.toList = [] then .ok old
  else
    let f1 := afterWings num old wings
    let f2 : Option OutFile := match props with
      | some t => some ((propPieces num t).foldl (OutFile.write cap) ⟨f1.getD [], []⟩)
      | none => f1.map fun d => ⟨d, []⟩
    if filename.toList.drop (filename.length - 4) = "json".toList then
      match f2 with
      | none => .error .key
      | some f => .ok (some (jsonData (replaceNewlines f.disk) ++ f.buf))
    else .ok (f2.map fun f => f.disk ++ f.buf)

end Verif
