import Verif.Model.Post
import Verif.Model.FileIO
/-! Model of the program `PostDataFusion` from its input files to the lines it writes: the readers of
`/repo/App/AppCommon/FileIO.cpp` selected by the configured formats, then the main loop (`postMain`). The configuration is one
that has been loaded (`Model/Config`). -/
namespace Verif
variable {α : Type} [Add α] [Sub α] [Mul α] [Neg α] [Div α] [Zero α] [One α] [Fl α]

/-- The input files as a reader sees them (FileIO.cpp:198-209, 255-259); `none`: cannot be opened. The IMU file is seen as bytes or as
tokens, depending on the format. -/
structure Files (α : Type) where
  imuBytes : Option (List Byte)
  imuText : Option (List (Tok α) × Bool)
  gnss : Option (List (GnssLine α) × Bool)

/-- The decoding of eight bytes and the uninitialised memory the readers meet (FileIO.cpp:231, FileIO.h:134, FileIO.cpp:268). -/
structure Surroundings (α : Type) where
  dec : List Byte → α
  array : Nat → List Byte
  imuTime : Nat → α
  gnssTime : Nat → α
  q : Nat → BitVec 32

/-- What reading the configured IMU file (`IMUReader`, FileIO.cpp:196-260) comes to: undefined behaviour, not finished within the fuel, or records. -/
inductive ImuFile (α : Type)
  | ub
  | unfinished
  | recs (rs : List (ImuRec α))

/-- A record before anything is stored in it: FileIO.h:134, 144-145. -/
def ImuRec.fresh (t0 : α) : ImuRec α := ⟨t0, fun _ => 0, fun _ => 0⟩

/-- `IMUReader::ReadNext`, case `IMU_FILE_IMD`, on its first call, FileIO.cpp:214-225, 243-252: `read` writes over the smart pointer
itself, so that the loop after it dereferences a pointer made of bytes of the file. Only from an empty file nothing is written; then the
fresh record is scaled and returned, and the end-of-file flag ends the reading. `g` is the gravity of the process. -/
def readImd (cfg : Config α) (s : Surroundings α) (g : α) (bytes : List Byte) : ImuFile α :=
  if bytes = [] then
    let r : ImuRec α := ImuRec.fresh (s.imuTime 0)
    let dt := 1 / ofI cfg.imu.dRate
    .recs [({ r with acce := fun i => r.acce i * (g * dt), gyro := fun i => r.gyro i * dt } : ImuRec α).toFrame (decide (cfg.imu.frame = 1))]
  else .ub

/-- `AddFile(IMUConfig)`, DataManager.cpp:43-54, with the format values of FileIO.h:41-45: text 0, `IMD` 1, binary 2; with any other
value the reader returns one fresh record and stops (FileIO.cpp:239-241). -/
def readImuFile (fuel : Nat) (cfg : Config α) (s : Surroundings α) (g : α) (f : Files α) : ImuFile α :=
  let rfu := decide (cfg.imu.frame = 1)
  let of : Option (List (ImuRec α)) → ImuFile α := fun | none => .unfinished | some rs => .recs rs
  if cfg.imu.format = 0 then
    match f.imuText with
    | none => .recs []
    | some (toks, ws) => of (TextIn.readAll rfu s.imuTime fuel 0 ⟨toks, ws, false, false⟩)
  else match f.imuBytes with
    | none => .recs []
    | some bytes =>
      if cfg.imu.format = 1 then readImd cfg s g bytes
      else if cfg.imu.format = 2 then of (BinReader.readAll s.dec rfu s.array fuel 0 ⟨bytes, true⟩)
      else .recs [ImuRec.fresh (s.imuTime 0)]

/-- The format values of FileIO.h:31-40. -/
def gnssFmt (format : Int) : GnssFmt :=
  if format = 0 then .pos7 else if format = 1 then .lines10 else if format = 4 then .rtklib else if format = 6 then .gga else .other

/-- `AddFile(GnssConfig)`, DataManager.cpp:29-41; a file that cannot be opened gives no records. -/
def readGnss (cfg : Config α) (s : Surroundings α) (f : Files α) : GnssFile α :=
  if !cfg.gnss.enable then .recs []
  else match f.gnss with
    | none => .recs []
    | some (lines, nl) => readGnssFile (gnssFmt cfg.gnss.format) s.gnssTime s.q lines nl

/-- What a run of the program (PostDataFusion.cpp `main`, :31-138) comes to. -/
inductive RunResult (α : Type)
  | ub
  | unfinished
  | lines (ls : List (NavOutput α))

/-- The program after loading its configuration, PostDataFusion.cpp:46-104. The outage object `o` is constructed from the configuration
(`Model/Outage`). -/
def fileMain (fuel : Nat) (g0 : α) (dev0 : Dev α) (junk : Junk α) (res0 : NavOutput α) (o : Outage α) (cfg : Config α)
    (s : Surroundings α) (f : Files α) : RunResult α :=
  match readGnss cfg s f with
  | .ub => .ub
  | .recs gs => match readImuFile fuel cfg s g0 f with
    | .ub => .ub
    | .unfinished => .unfinished
    | .recs is => .lines (postMain g0 dev0 junk res0 o cfg gs is)
end Verif
