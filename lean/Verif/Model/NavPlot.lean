import Verif.Types
/-! Model of the viewer `/repo/App/UiDataFusion/navplot.cpp`, `navplot.h` and `navplot_main.cpp`: what is loaded and what is
drawn. The three file formats are different values here, as the source reads; in the header two of them are equal
(`FileIO.h`, C66) and the file does not compile. Not modelled: fonts, grid, legend, colours, what is only logged. -/
namespace Verif.NavPlot
open Verif
variable {α : Type}

/-- `NavFileFormat`, as used at navplot.h:81-87. -/
inductive Format
  | binary
  | ascii
  | doubleMatrix
  deriving DecidableEq

/-- `NavPlotErrorCode`, navplot.h:17-22. -/
inductive Code
  | ok
  | notFound
  | badFormat
  | notSupported
  deriving DecidableEq

/-- `extension_map`, navplot.h:81-87. -/
def formatOf (ext : List Char) : Option Format :=
  if ext = "nav".toList then some .ascii
  else if ext = "rst".toList then some .ascii
  else if ext = "navmat".toList then some .doubleMatrix
  else if ext = "bin".toList then some .binary
  else if ext = "navbin".toList then some .binary
  else none

/-- `file_path.find_last_of('.')` and `substr(index + 1)`, navplot.cpp:100-102. Without a point the index is `npos`; it is
unsigned, so line 101 never returns, and `npos + 1` is zero: the whole path is taken. -/
def extension (path : List Char) : List Char := (path.reverse.takeWhile (· ≠ '.')).reverse

/-- A line of text as words; `none` is a word that is no number. -/
abbrev Line (α : Type) := List (Option α)

/-- The assignment to the `k`-th variable of the extraction, navplot.cpp:62-64; `wk` is the whole number the first word
stands for (it is taken to be written without a point). -/
def set (wk : α → Int) (n : NavOutput α) (k : Nat) (x : α) : NavOutput α :=
  match k with
  | 0 => { n with week := wk x }
  | 1 => { n with gpst := x }
  | 2 => { n with lat := x }
  | 3 => { n with lon := x }
  | 4 => { n with height := x }
  | 5 => { n with vn := fun i => if i.val = 0 then x else n.vn i }
  | 6 => { n with vn := fun i => if i.val = 1 then x else n.vn i }
  | 7 => { n with vn := fun i => if i.val = 2 then x else n.vn i }
  | 8 => { n with atti := fun i => if i.val = 0 then x else n.atti i }
  | 9 => { n with atti := fun i => if i.val = 1 then x else n.atti i }
  | 10 => { n with atti := fun i => if i.val = 2 then x else n.atti i }
  | 11 => { n with gb := fun i => if i.val = 0 then x else n.gb i }
  | 12 => { n with gb := fun i => if i.val = 1 then x else n.gb i }
  | 13 => { n with gb := fun i => if i.val = 2 then x else n.gb i }
  | 14 => { n with ab := fun i => if i.val = 0 then x else n.ab i }
  | 15 => { n with ab := fun i => if i.val = 1 then x else n.ab i }
  | 16 => { n with ab := fun i => if i.val = 2 then x else n.ab i }
  | _ => n

/-- `ss >> nav.week >> … >> nav.ab[2]`, navplot.cpp:62-64, from variable `k` on. A word that is no number sets its
variable to zero and ends the extraction; variables without a word keep their value. -/
def fill [Zero α] (wk : α → Int) : Nat → Line α → NavOutput α → NavOutput α
  | _, [], n => n
  | k, some x :: ws, n => fill wk (k + 1) ws (set wk n k x)
  | k, none :: _, n => if k ≤ 16 then set wk n k 0 else n

/-- The loop of `LoadFile_<NavAscii>`, navplot.cpp:57-66. The list holds the texts between the line ends (the last one is
empty if the file ends with a line end); `junk k` is what `nav` holds, uninitialised, in turn `k`. -/
def asciiRecords [Zero α] (wk : α → Int) (junk : Nat → NavOutput α) : Nat → List (Line α) → List (NavOutput α)
  | _, [] => []
  | k, l :: ls => fill wk 0 l (junk k) :: asciiRecords wk junk (k + 1) ls

/-- The loop of `LoadFile_<NavBinary>`, navplot.cpp:45-48, on a file of whole records: the end is noticed by the read that
finds nothing, after which `nav` is stored once more. `last` is what `nav` holds. -/
def binaryRecords (last : NavOutput α) : List (NavOutput α) → List (NavOutput α)
  | [] => [last]
  | r :: rs => r :: binaryRecords r rs

/-- What is at a path. -/
inductive File (α : Type)
  | text (ls : List (Line α))
  | records (rs : List (NavOutput α))

/-- What an axis shows, navplot.cpp:147-148,179-180,220-221,291-292,321-322. -/
inductive Title
  | north
  | acceBias
  | gyroBias
  | acceScale
  | gyroScale
  deriving DecidableEq

/-- The window: `navdata`, `track_curve`, `bias_curves` (navplot.h:79,93-94), the range of the horizontal axis (`none`:
automatic) and the title of the vertical one. A curve is the list of its points; a null pointer is `none`. -/
structure Window (α : Type) where
  navdata : List (NavOutput α)
  track : Option (List (α × α))
  bias : Fin 3 → Option (List (α × α))
  xRange : Option (α × α)
  yTitle : Option Title

/-- `NavPlot::NavPlot`, navplot.cpp:20-26. -/
def Window.new : Window α := ⟨[], none, fun _ => none, none, none⟩

/-- What the loaders find in memory: `nav` of the binary loader and of each turn of the text loader. -/
structure Memory (α : Type) where
  nav : NavOutput α
  turn : Nat → NavOutput α

/-- `LoadFile`, navplot.cpp:76-87, with `LoadFile_`, 33-74. The binary loader clears the data first (line 43), the text
loader does not. A file of the other kind is not considered (`badFormat` stands for it; no theorem uses it). -/
def Window.loadFile [Zero α] (wk : α → Int) (mem : Memory α) (w : Window α) (file : Option (File α)) : Format → Code × Window α
  | .binary =>
    match file with
    | none => (.notFound, w)
    | some (.records rs) => (.ok, { w with navdata := binaryRecords mem.nav rs })
    | some (.text _) => (.badFormat, w)
  | .ascii =>
    match file with
    | none => (.notFound, w)
    | some (.text ls) => (.ok, { w with navdata := w.navdata ++ asciiRecords wk mem.turn 0 ls })
    | some (.records _) => (.badFormat, w)
  | .doubleMatrix => (.notSupported, w)

/-- `ClearFigure`, navplot.cpp:230-240. -/
def Window.clear (w : Window α) : Window α := { w with track := none, bias := fun _ => none }

/-- `ShowTrack`, navplot.cpp:125-153. -/
def Window.showTrack (w : Window α) : Window α :=
  if w.navdata = [] then w
  else { w.clear with track := some (w.navdata.map fun d => (d.lon, d.lat)), xRange := none, yTitle := some .north }

/-- The value drawn by each of the four plots over time, navplot.cpp:167,208,279,309. -/
def value : Title → NavOutput α → Fin 3 → α
  | .acceBias, d, i => d.ab i
  | .gyroBias, d, i => d.gb i
  | .acceScale, d, i => d.as i
  | .gyroScale, d, i => d.gs i
  | .north, d, _ => d.lat

/-- `ShowAcceBias`, `ShowGyroBias`, `ShowAcceScaleFactor`, `ShowGyroScaleFactor`, navplot.cpp:155-183,196-224,267-295,297-325:
the same text with another member and title. -/
def Window.showThree (t : Title) (w : Window α) : Window α :=
  match w.navdata with
  | [] => w
  | d :: ds =>
    { w.clear with
      bias := fun i => some ((d :: ds).map fun d => (d.gpst, value t d i))
      xRange := some (d.gpst, ((d :: ds).getLastD d).gpst)
      yTitle := some t }

/-- `LoadAndPlotFigure`, navplot.cpp:98-123. -/
def Window.open [Zero α] (wk : α → Int) (mem : Memory α) (w : Window α) (path : List Char) (file : Option (File α)) : Window α :=
  match formatOf (extension path) with
  | none => w
  | some f =>
    let r := w.loadFile wk mem file f
    if r.1 = .ok then r.2.showTrack else r.2

/-- What happens to the window: a file is opened (navplot_main.cpp:14-15), a file is dropped on it (navplot.cpp:94-96, which does
nothing), a menu entry is chosen (navplot.cpp:226-228,242-248,259-265). -/
inductive Event (α : Type)
  | open (mem : Memory α) (path : List Char) (file : Option (File α))
  | drop (path : List Char) (file : Option (File α))
  | track
  | three (t : Title)

/-- One event. -/
def Window.step [Zero α] (wk : α → Int) (w : Window α) : Event α → Window α
  | .open mem path file => w.open wk mem path file
  | .drop _ _ => w
  | .track => w.showTrack
  | .three t => w.showThree t

/-- A history of events. -/
def Window.run [Zero α] (wk : α → Int) (es : List (Event α)) (w : Window α) : Window α := es.foldl (fun w e => w.step wk e) w
end Verif.NavPlot
