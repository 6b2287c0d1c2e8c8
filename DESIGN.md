# A machine-checked model of RGIOE in Lean 4

## Approach

The code in `/repo` is modelled function by function under `lean/Verif/Model/`.
Every definition cites the file and lines it models. Property theorems live in
`lean/Verif/Props/`, apart from helper lemmas (`lean/Verif/Lemmas/`), and use the
small specifications in `lean/Verif/Spec/`.

### Numbers

All numerical code is modelled *once*, over an abstract scalar type `α` with
arbitrary operations (`+ - * / neg 0 1`, and the class `Fl`: literals, `sin`, `cos`,
`sqrt`, `atan2`, comparisons returning `Bool`, narrowing to `float`, matrix inverse).

* Theorems about control flow, state machines and data flow (status life cycle,
  isolation of instances, flags, schedules, null inputs, getters, re-initialisation,
  uninitialised memory ...) are proved for **every** `α` and **every** choice of these
  operations. They therefore hold for IEEE floats including rounding, NaN, infinities.
* Numerical theorems (rotations, covariances, round trips) instantiate `α := ℝ`
  (exact arithmetic; `atan2 y x = Complex.arg ⟨x,y⟩`, narrowing is the identity).
  Rounding is *not* modelled there. Where Lean totalises (`x/0 = 0`, `sqrt` of a
  negative number `= 0`, `asin` outside [-1,1], inverse of a singular matrix `= 0`)
  and C++ yields NaN/Inf, the theorem is either stated under the guard excluding that
  point or is true for an arbitrary result of the operation; the theorem's comment says which.

Uninitialised C++ members are explicit parameters of the constructors (`junk`), so theorems
quantify over their content.

Undefined behaviour (null dereference, out-of-bounds read) is a distinct outcome (`ub`).
Non-termination is modelled by step functions / fuelled loops plus theorems that no amount of
fuel suffices.

### Trusted base

* Lean 4.33.0's kernel. Axioms: only `propext`, `Classical.choice`, `Quot.sound`; which theorem uses which
  is listed in `AXIOMS.md` (generated by `tools/axioms.py` from `#print axioms`). No own axioms, no compiled evaluation.
* Mathlib's definitions used in statements (ℝ, `Real.sin` ..., `Complex.arg`, `Matrix`, `Matrix.PosSemidef`, `HasDerivAt`).
* The reading of the C++ source into `Model/` (each definition cites its lines), in particular:
  * evaluation follows the source text. The project compiles with `-Ofast`, which allows the compiler to
    reassociate and to assume that no NaN occurs. Theorems "for every arithmetic" speak about the source order of operations,
    exact-arithmetic theorems are insensitive to it.
  * Eigen: products, transpose, `normalized` (divide by the norm; returns the input when the squared norm is not
    positive), quaternion product and conversion, `inverse` (an operation of `Fl`, at ℝ Mathlib's inverse),
    `JacobiSVD` (its result is an input of `Model/DcmEst`; contract `Spec.isSvd`: U, V orthogonal, product right).
  * yaml-cpp: a document is a partial map from keys to values; reading a missing key throws.
  * iostreams: a text file is a list of tokens/fields, a binary file a list of bytes, with failure states as in
    `Model/FileIO`. Number formatting (`fmt`, `operator<<`) is a parameter.
  * threads: `Model/NavWriter` is a transition system with one step per lock-protected region; all interleavings.
    `Model/Threads`: one step per access to memory shared between filter objects; all interleavings.
  * heap and stack memory: uninitialised members are parameters (`junk`); reads outside a buffer and null dereferences are
    the outcome `ub`/`none`.

### What is modelled

| code | model |
|---|---|
| `Src/rgioe.cpp` (whole C API) | `Model/Api` |
| `Src/DataFusion.cpp`, `KalmanFilter.*`, `InsCore.cpp`, `Earth.cpp`, `Convert.cpp`, `StaticDetect`, default build (15 states) | `Model/{Fusion,Kalman,Ins,Earth,Convert,StaticDetect}` |
| the same for all builds with optional states (scale factors, lever arm, odometer scale) | `Model/FusionExt`, layout macros in `Model/Layout` |
| `Src/Alignment.cpp`, `AttiAhrs.cpp` | `Model/{Align,Ahrs}` |
| `Src/DcmEstimator.cpp`, `Outage.cpp` | `Model/{DcmEst,Outage}` |
| `Src/Recorder/*` (CRC, writer) and recording inside the filter (`ENABLE_FUSION_RECORDER`) | `Model/{Crc,Recorder,Logging}` |
| recorder file loader, CSV and Mat export, summary, progress | `Model/{Loader,Export}` |
| `App/PostDataFusion/PostDataFusion.cpp`, `DataManager`, `PostDataFusion_old.cpp` | `Model/{Post,DataManager,PostOld}` |
| the program `PostDataFusion` from files to lines | `Model/Pipeline` |
| `App/AppCommon` config, file readers, GNSS checks, writer thread | `Model/{Config,FileIO,SeqCheck,NavWriter}` |
| several filter objects in several threads (shared statics and singleton) | `Model/Threads` |
| `App/RtSimulation` decoders (ADI frames, wheel velocity) | `Model/Adi` |
| configuration window `App/UiDataFusion/datafusionwindow.cpp` (form, start, open, save) | `Model/Ui` |
| characters of the text result file (`operator<<(NavOutput)`, `PvaWriter`) | `Model/ResultLine` |
| rows of doubles of the writer thread, report of the IMU parameters (`App/AppCommon/FileIO.cpp:71-101,152-172`) | `Model/Reports` |
| `ReaderBase::ReadUntil` (`App/AppCommon/FileIO.cpp:419-430`) | `Model/ReadUntil` |
| stand-alone mechanization `Src/InsCore.cpp` (`InitializePva(nav, imu)`, `Output`) | `Model/PureIns` |
| processing thread of the window program `App/UiDataFusion/DataFusionThread.cpp` (as written; older readers; filter and alignment abstract) | `Model/UiThread` |
| viewer `App/UiDataFusion/navplot.cpp`, `navplot_main.cpp` (as written) | `Model/NavPlot`, `Spec/NavPlot` |
| `Tools/ImuFix.cpp`, `ZeroDetector.cpp`, `SaveNavToBin.cpp` (as written; older readers) | `Model/OldTools` |
| replay player `navplay_node.cpp`, simulation node `rtsim_fusion_node.cpp` (as written; they use an older interface of `Src`) | `Model/RtSim` |

### What is not modelled

* Of the Qt GUI the form logic of the configuration window is modelled (`Model/Ui`: events edit/start/open/clear/save, Qt's number/text
  conversions as unknown functions); its look, file dialogs and the enabling of fields are not. `NavPlot` is modelled as written (`Model/NavPlot`) although it does not compile
  (`NavAscii` and `NavDoubleMatrix` are both 1, the specialisations clash). ROS node plumbing is not modelled. Of the Python tools, the error analysis (`Model/ErrAnalysis`), the columns `show_nav.py`/`show_sensors.py` take (`Model/Scripts`) the mechanization of `InsCore.py` (`Model/PyIns`) and the geodetic conversions of `Earth.py` (`Model/PyEarth`) are modelled; drawing is not. `operator<<(ostream, RgioeGnssData)` has 9 placeholders for 8 arguments; it is used only in programs that do not compile, and is not modelled.
* `RTSUpdate`: its members are commented out (`DataFusion.h:173-181`), the build with RTS does not compile.
* Double-antenna build: `Alignment.cpp:157,162` uses a variable that is out of scope; does not compile.
* `RGIOE_FAST_INS` is used nowhere.
* Rounding in the exact-arithmetic theorems; the single-precision build is covered only by the theorems for every arithmetic
  and by C127, which follows rounding errors through the attitude and position quaternions (roundings at the operations of the
  source, no overflow; a compiler that reorders operations, as `-Ofast` may, rounds elsewhere).
* `int` counters (`up_cnt`, `static_cnt`, `base_height_is_set`) are unbounded; C138 says when they would overflow.
  `uint32_t` counters of the filter are `BitVec 32`, sensor bits `BitVec 16`.
* Performance, memory exhaustion, signal handling, concurrent use of one handle. For separate handles in separate threads
  (`Model/Threads`) the three shared objects are accessed atomically and sequentially consistent; C++ promises less (data races).
* `App/UiDataFusion/DataFusionThread.cpp` uses interfaces that no longer exist in `Src` (its control flow and reading are modelled, `Model/UiThread`); so do `rtsim_fusion_node.cpp` and `navplay_node.cpp`,
  whose own logic is modelled with the engine as an unknown (`Model/RtSim`); ROS transport is taken as lossless.
* `Tools/`: `ImuFix`, `ZeroDetector`, `SaveNavToBin`, `ObtainInstallAngle` use types and readers that no longer exist (`ImuData`, `NavReader`,
  `OdometerReader`) and do not compile; the first three are modelled as written (`Model/OldTools`), of `ObtainInstallAngle` the estimation loop is modelled (`Model/InstallAngle`); of `showTraj` (not built) reading and what is drawn (`Model/ShowTraj`); `EstimateInstallAngles` prints constants; `App/AppCommon/Timer.h` (wall clock) and `RelativePos.h`
  (not valid C++) are not modelled.

## Findings (properties the code violates)

Each is stated in `properties.jsonl` and proved as a negation with a concrete witness or as an exact characterisation,
next to what does hold (`_partial`):

* Recorder/loader: C06 (reused loader), C07 (hang on bad checksum), C09 (reads past buffer), C104 (position not metres), C105 (shared origin),
  C106 (quality columns zero), C115 (CSV times lose precision), C116 (Mat names), C117 (progress), C118 (summary overflow).
* API: C18 (status after rejected init), C20 (position deviations), C70 (uninitialised velocity), C111 (`enable_gnss` ignored),
  C119 (filter re-initialisation), C120 (longitude range), C138 (counter overflow), C121 (time stamps ignored), C122 (motion ignored while aligning), C124 (one NaN destroys the solution), C133 (instances in separate threads), C125 (zero-angular-rate updates learn the earth's rotation as gyroscope bias).
* Filter: C26 (process noise not a covariance), C27 (lost corrections), C35 (relative height without base), C129 (the order of fixes), C131 (negative variance at the first non-holonomic update), C113 (`scale-of-std`), C158 (consistency test inverted and unused),
  C65, C78, C97–C102 (optional states), C142 (latitude of the attitude update).
* Alignment: C87 (roll), C88 (lever arm with mounting yaw), C89 (velocity not divided by time, vertical sign), C90 (attitude deviation), C91 (bias),
  C123 (mounting yaw applied once per fix), C144 (date line), C152 (repeated fixes), C153 (fixes without a deviation).
* Helpers: C45 (distance), C48 (AHRS quaternion), C51 (outage hang), C80 (odometer scale), C130 (zero rotation vector), C136 (AHRS turns a device at rest upside down), C137 (quaternion shrinks), C149 (heading with the nose down), C176 (latitude near the antimeridian), C170 (magnetometer north), C179 (restart of the stand-alone mechanization), C180 (its report).
* Tools: C178 (trajectory viewer: out of range, roll and heading exchanged).
* Python tools: C171 (sensor and bias plots), C173 (attitude matrix of `mechanization_n` shrinks to nothing), C174 (longitude of points on the antimeridian).
* Applications: C56 (fix quality), C59 (writer drops lines), C61 (extra record), C63 (saved config unreadable), C66 (ADI checksum), C72 (stop time), C74 (mean gap),
  C75 (hang on bad token), C76 (fixes dropped), C135 (formats that crash or ignore the file), C139 (replay speed), C140, C141 (simulation node), C77 (binary in ASCII file), C107–C109 (old program), C112 (settings ignored),
  C145–C148 (configuration window: frame ignored, unreadable scale, rejected start changes the configuration, rounding, save and open), C151 (`ReadUntil` hands over only the time), C162 (displacement columns), C165 (odometer generator: columns out of step, loops for ever), C166 (accuracy check accepts concentrated errors), C168 (accuracy check at the date line),
  C181–C185 (processing thread: empty run without a start time, negative progress, a missed fix blocks all later ones, silent failures, unset GNSS time),
  C187–C190 (viewer: unset point after the final line end, second text file appended, GNSS mode and flags drawn as gyroscope bias, last binary record twice, dropped files ignored), C191–C193 (old tools: first sample dropped, last record twice).

## Robustness of the theorems

`tools/mutate.py` applies realistic bugs to a scratch copy of the model and rebuilds; `seeded/LOG.jsonl` lists
every attempt, the claim it breaks and the theorems that stopped proving; survivors led to tightened theorems (named in the log).

## Plan per property

| id | model | proof |
|----|-------|-------|
| C01 | `Model/Crc`: table, byte loop, bit loop over `BitVec 32` | table = bitwise on all 256 indices by kernel evaluation, lifted by induction on the byte list |
| C02 | same + byte swap | linearity of the step, induction |
| C03 | same | injectivity of the CRC step in the register and of four bytes |
| C04 | `Model/Recorder` header writer, `Model/Loader` header parser on byte lists | parser/printer round trip by induction |
| C05 | record writer, scan loop | induction over the record list |
| C06 | `AddData` | invariant by induction |
| C07, C09 | scan loop with fuel and explicit out-of-bounds outcome | termination on recorder files, non-termination theorem |
| C08 | `AddData` | case analysis |
| C10 | MSG_ID | bit-vector arithmetic, table by evaluation |
| C11-C13, C15-C19, C21, C22, C70 | `Model/Api` over the concrete filter, abstract scalar | invariants by induction over the call list |
| C14 | same, shared Earth gravity threaded explicitly | non-interference: results do not depend on incoming gravity |
| C20 | `Model/Api` | negation with witness, partial for atti/vel |
| C23-C26, C68 | `Model/Kalman`, `Model/Fusion` at ℝ | invariant by induction; PosSemidef algebra |
| C27 | `Model/Fusion` | equational + witness |
| C28, C29, C36 | `Model/Ins`, `Model/Convert` at ℝ | invariant by induction |
| C30, C31, C32 | `Model/Fusion`, abstract scalar | case analysis, invariants |
| C33, C34 | `Model/StaticDetect` | induction over the sample list |
| C35 | `Model/Fusion` | induction over calls |
| C37 | `Model/Fusion` at ℝ | direct |
| C38-C43 | `Model/Convert` at ℝ | trigonometric identities |
| C44-C46 | `Model/Earth` at ℝ | real analysis |
| C47, C48 | `Model/Ahrs` at ℝ | invariant by induction |
| C49 | `Model/DcmEst` with an abstract SVD satisfying its contract | invariant |
| C50, C51 | `Model/Outage` at ℝ / fuelled loop | induction |
| C52-C55 | `Model/DataManager` | induction over calls |
| C56, C57 | `Model/PostFusion` | case analysis, induction |
| C58, C59 | `Model/NavWriter` as a transition system | invariant over all schedules; witness schedule |
| C60-C62 | `Model/FileIO` | algebra, induction over the file |
| C63, C64 | `Model/Config` | key-set argument, projection lemmas |
| C65 | `Model/Layout` | all 16 configurations by case analysis |
| C66, C67 | `Model/Adi` | induction / bit-vectors |
| C69 | `Model/Ins` at ℝ | algebra |
| C71, C72, C74 | `Model/{Post,DataManager}` | induction over delivered records |
| C73 | `Model/Config` | case analysis |
| C75, C76 | `Model/FileIO` | fuelled reader loops, no fuel suffices |
| C77 | `Model/NavWriter` | witness |
| C78 | `Model/Layout` | case analysis |
| C79 | `Model/Adi` | algebra |
| C80 | `Model/DcmEst` | algebra under the SVD contract |
| C81, C82 | `Model/Ins` against navigation equations in `Spec/Navigation` | derivatives in the step length, Taylor bounds |
| C83, C93 | sensitivities, transition matrix | directional derivatives of the mechanised equations |
| C84–C86 | `Model/Api` getters | equational, round trip |
| C87–C91, C123 | `Model/Align` at ℝ against `Spec/Align` | trigonometry; induction over slow fixes for C123 |
| C92 | `Model/Earth` | algebra, real bounds |
| C94, C95 | `Model/Kalman` | matrix algebra; optimality by completing the square |
| C96 | `Model/Fusion`, every arithmetic | induction over samples between measurements |
| C97–C102 | `Model/FusionExt` for all builds | state-layout case analysis, invariants over histories |
| C103–C106 | `Model/Logging` composed with `Model/{Recorder,Loader}` | simulation: log file of a history loads to the history |
| C107–C110 | `Model/PostOld` | replay theorem by induction over the merged data |
| C111, C112 | `Model/{Api,Config,Post}` | non-interference: commutation with forgetting the option |
| C113 | `Model/Fusion` at ℝ | algebra |
| C114–C118 | `Model/Export` | printer/parser induction, counting |
| C119 | `Model/Fusion.initFusion` on an arbitrary state | equational, witness |
| C120 | `Model/{Ins,Convert}` | `Complex.arg` range |
| C121, C122 | `Model/Api`, every arithmetic | non-interference by simulation over histories |
| C124 | `Model/Api`, every arithmetic with an absorbing NaN (`Spec/NaN`) | invariant over histories |
| C125 | `Model/{Ins,Fusion,Api}` at ℝ, sensors of a parked vehicle in `Spec/Rest` | fixed point of the mechanization, invariant over histories |
| C126 | `Model/{Api,Fusion}`, every arithmetic | refinement: the C interface is the filter |
| C127 | `Model/{Convert,Ins,Fusion,Api}` at `RR R` (`Spec/Rounding`): the reals with every operation followed by an arbitrary rounding | forward error analysis of each function, invariant over histories |
| C128 | `Model/{Kalman,Fusion,Api}` at ℝ | optimality (C95) against averaging with weight 1/(k+1), induction over the fixes; posted through C126 and C37 |
| C129 | `Model/{Kalman,Fusion,Api}` at ℝ | push-through form of the update `(1+P·HᵀR⁻¹H)P' = P`, induction over the measurements, uniqueness |
| C130 | `Model/Convert` at ℝ, and at every arithmetic with an absorbing NaN | half-angle algebra; evaluation at zero |
| C131 | `Model/Fusion` at ℝ: propagation, non-holonomic update; `Model/Config`, `Model/Api` | the position rows after one propagation couple only to the velocity; Joseph form minus a positive definite quadratic form; counterexample family |
| C132 | `Model/Fusion` at ℝ: propagation, zero-velocity and zero-rate updates, any history | restriction of the covariance to velocity and one bias, where the process noise is diagonal; update on the restricted covariance |
| C133 | `Model/Threads`: time update split at its accesses to shared memory, any number of threads, any schedule | invariant "every thread is where its own calls bring it and at most one is inside a call", induction over the schedule; racing schedules evaluated for all objects |
| C134 | `Model/Pipeline` = readers (C61, C76) + `Model/Post` + `Model/Api` + `Model/Fusion`, every arithmetic | composition: replay theorem (C57), the interface is the filter (C126), prefix order of merged sources |
| C135 | `Model/Pipeline` | evaluation for every file content; termination from C61, C75, C76 |
| C136 | `Model/Ahrs` at ℝ | exact change of the cosine between third axis and force in one step, sign of the gain; over many samples reduction to the plane of force and axis, a discrete energy that loses the share 0.0043·dt per sample (`Props/LevelRun`) |
| C137 | `Model/Ahrs` at ℝ | norm is multiplicative; limit of powers; algebra of the fixed point |
| C138 | `Model/{StaticDetect,Fusion,Align,Api}`, every arithmetic | exact value of the counters after any history |
| C139 | `Model/RtSim`: player, every arithmetic | invariant "published the prefix, standing before the next record", induction over the events |
| C140 | `Model/RtSim`: node, any schedule, any engine | induction over the schedule; queue invariants |
| C141 | `Model/RtSim` | evaluation |
| C142 | `Model/Ins` at ℝ | unfolding; derivative of the latitude (C81) for short steps |
| C143 | `Model/Kalman` at ℝ, random quantities in `Spec/Stochastic` as elements of an inner-product space | induction over the calls: Gram matrix of the error; orthogonality of the error to all innovations |
| C144 | `Model/{Align,Api}` at ℝ | C89 chained over two fixes, bound on the radius of a parallel |
| C145 | `Model/Ui`, every Qt conversion | induction over the window's events |
| C146 | `Model/Ui` | case split on what the window checks; witness |
| C147 | `Model/Ui` | read-back of every field shown; witnesses at six digits and format 2 |
| C148 | `Model/Ui` | induction over the events (form edits never reach the saved configuration) |
| C149 | `Model/Convert` at ℝ | polar form of the entries used near gimbal lock |
| C150 | `Model/{Ins,Fusion,Api}`, every arithmetic | simulation: devices equal up to the reported angles, induction over the calls |
| C151 | `Model/ReadUntil`, every file | induction over the records |
| C152 | `Model/{Align,Api}` at ℝ; every arithmetic with a not-a-number | C89 chained over three fixes; absorption of not-a-number (C124) |
| C153 | `Model/{Align,Api}`, every arithmetic | invariant over the calls |
| C154 | `Model/ResultLine`: characters `fmt` prints | induction over digits, fields and lines; reader in `Spec/ResultLine` |
| C155 | `Model/{Kalman,Fusion}` at ℝ | Loewner order: optimal gain (C95) against the other filter's gain; induction over the steps |
| C156 | `Model/{Kalman,Fusion}` at ℝ | zero rows of the gain; initial covariance (C68) |
| C157 | `Model/Logging` | induction over the interleaved history, one step lemma per dataset |
| C158 | `Model/Kalman` at ℝ; the second part for every arithmetic | the statistic rewritten with the covariance of the innovation; scaling |
| C159 | `Model/{Api,Fusion,Ins}` at ℝ | simulation: the two devices differ in the sign of the position quaternion and in full turns of the longitude |
| C160 | `Model/{Api,Align,Fusion}` at ℝ | simulation: the two devices agree but for time stamps (C121), the alignment multiplies by the time difference it divided by |
| C161 | `Fusion`, `Api` | a function that multiplies every uncertainty in a state commutes with every operation (the gain only sees ratios); induction over the calls |
| C162 | `Model/Reports` | the file is a concatenation of blocks of equal length; arithmetic of `distance` with the zero base position |
| C163 | `Model/Reports`, `Config` | each conversion cancels |
| C164 | `Ins`, `Fusion`, `Api`, `StaticDetect` | two runs related by turning the body frame: quaternions up to the rotation they stand for, filter matrices block by block (`Lemmas/BodyFrame`), the standstill detector through the sum of the variances |
| C165 | `Model/OdoGen` | the columns are out of step by 2 per record and in step again after 4 lines = 5 records (an integer is read from the digits before the point, the rest of the number is read next); induction over blocks of four lines |
| C166 | `Model/ErrAnalysis` | the cumulated histogram counts the values below an edge (induction over the bins); the interpolation picks the bin in which the count passes 95.44 % |
| C167 | `Model/ErrAnalysis` | induction over the reference: unwrapped headings are the same directions with turns of at most a half |
| C168 | `Model/ErrAnalysis` at ℝ | value of the linear interpolation in its segment |
| C169 | `Model/Ahrs` at ℝ | alike readings give the same normalised vector; induction over the history; the series of the rotation vector is zero only at zero |
| C170 | `Model/Ahrs` at ℝ | from the exact condition of C169 for the first magnetometer reading |
| C171 | `Model/Scripts`: the table `np.loadtxt` reads, the columns the scripts take | the columns of a printed result line are counted; induction over the rows |
| C172 | `Model/PyIns` against `Model/Ins` at ℝ | the mid-point agrees because latitude and longitude do not depend on a quaternion's length; componentwise algebra |
| C173 | `Model/PyIns`: `step`, `run` | length of a product of quaternions; the series' length below one; induction over the run; geometric limit |
| C174 | `Model/PyEarth`: `rounds`, `ecefToLla`, `llaToEcef` | in the tangent of the latitude: the relative error changes sign and shrinks by 140 each round; the height grows with the tangent, so consecutive heights enclose the true one and the stopping rule bounds the error; induction over the rounds |
| C175 | `Model/PyEarth`: `compensate` | from C174 |
| C176 | `Model/Convert`: `qneToLla`, `Model/Fusion`: `feedBack` | spec: the place a quaternion stands for (`Spec/Meridian`); representation of all such quaternions, exact reading formula, Lipschitz bound of arctan, explicit failing longitudes |
| C177 | `Model/InstallAngle` | invariant: the cost (`Spec/InstallAngle`) is a quadratic with minimum at `theta` and curvature `P⁻¹`; completing the square per record |
| C178 | `Model/ShowTraj` | induction over the lines; quaternion algebra of `Lemmas/Rotation` |
| C179 | `Model/PureIns` (on `Model/Ins`) | the state a step reads; linearity of the velocity step in the previous increments; explicit free fall for the violation |
| C180 | `Model/PureIns`, `Model/Fusion`: `output` | unfolding, in every arithmetic; comparison over ℝ |
| C181, C184, C185 | `Model/UiThread`, every arithmetic, any alignment | induction over the IMU file; case analysis of the start |
| C182 | `Model/UiThread` | one number per sample (every arithmetic); bounds over ℝ |
| C183 | `Model/UiThread` | sublist by induction (every arithmetic); exact set of used fixes over ℝ with a reader invariant |
| C186 | `Model/NavPlot`: window as state, user actions as events | invariant over every history: the figure is a function of the data held (`Spec/NavPlot`) |
| C187, C188, C189, C190 | `Model/NavPlot`, every arithmetic | induction over lines, words and records; explicit files for the violations |
| C191, C192, C193 | `Model/OldTools` on the readers of `Model/UiThread` | induction over the file; C192 through the static criterion C33 |
| C194 | `Model/Ins`, `Model/Convert` | spec: Rodrigues matrices and their product (`Spec/Turning`); quaternions as Mathlib ℍ, triangle inequality along the run, plane geometry of one truncated turn |
| C195 | `rflight`, `computedTurns` at `RR R` (Spec/TurningRounded), every operation rounded | normalisation is 2-Lipschitz; per-sample defect (series 1200 u, products 100 u, scaling 4.4 u); induction over the samples as in C194; matrix entry from the quaternion distance |
| C196 | `flight`, product of position and attitude quaternion (Spec/EarthAttitude) | half-angle Lipschitz bound of the rotation quaternion; the frame turns cancel in the product; induction over the samples |
| C197 | `Model/Ins` at ℝ, `Spec/PlaceMoves` | the earth turn seen in the local frame cancels the turn about the axis exactly; what is left is the transport turn, `rotQuat_lip`; induction over the samples |
| C198 | `flight`, a differentiable path of rotation matrices with bounded, Lipschitz rate (Spec/TrueAttitude) | mean value bounds to third order for the true and the computed turn of one interval; telescoping over the samples; C196 |
| C199 | `Ins.forwardImu` at ℝ, force and rate as differentiable signals (Spec/TrueForce) | mean value bounds for the impulse in body axes, for the half turn of the frame, and for the terms of the sample before; composed for one sample |
| C200 | `flight` at ℝ, sums over the run (Spec/VelocityMoves) | `velocity_after` (closed form of one sample), triangle inequalities; induction over the samples |
| C201 | `flight` at ℝ, a differentiable true flight with running integrals of rate and force (Spec/TrueFlight) | Lipschitz constants of earth rate, transport rate, gravity and place on the box; mean value bounds for the truth over one sample; one-sample error e → e + A dt (e + dt); discrete Gronwall over the samples; arctan bounds from place quaternion to latitude and longitude |
| C202 | as C201, with `StartsNear` and `NearImu` (Spec/TrueFlight) | the one-sample bound of C201 with readings off by dt·e: the added terms are of the same order dt (e + dt), so the same recursion holds when the sensor error is at most the running error; `lla_lip` for the start |
| C203 | `ForwardMechanization` at the rounding scalar `RR R`, all operations and library functions accurate to `u` (`AccurateLib`) | a rounded step stays within `c u` of the exact step from the same numbers (syntax-directed error calculus `Ap`, uniform over the reachable box); after each step an exact state is *repaired* (unit attitude, place quaternion from position) near the rounded one, so the induction of C202 applies with an extra error `c u` per sample |
| C204 | `DataLoader` state kept between `LoadFile` calls (`Model/Loader`) | induction over the list of files; reading a header again leaves the table (`minsert` of present keys), the record invariant of C05 continues from the records already held |
| C205 | C interface (`rgioeInit`, calls, `rgioeGetResult`) over `Fusion` and `Ins`; a true flight as in C201 | refinement for every arithmetic: with no pending correction and no aid a time update is the mechanization step up to the info word, by induction over the call list (with C126); then C202 and the Euler round trip C40 |
| C206 | C interface at the rounding scalar `RR R` (`AccurateLib R u`), start values and options as written-down numbers | C205 for every arithmetic, the approximation calculus (`Lemmas/Approx`) for `makeNavEpoch`, the sampling interval and the conversion to degrees, then C203; the attitude by comparing sines and cosines of the reported angles (`Props/RoundedAttitude`) |
| C207 | The program `fileMain` on a text file of samples; vocabulary in `Spec/ResultFile` | The main loop is the replay through the API (`post_is_replay`), so every line is the report after the samples so far; then C205 and C206 for every prefix |
| C208 | API (`Api`, `Fusion`) and mechanization (`Ins`) over abstract scalars and ℝ | share counter drained to zero over any stretch without usable fix (invariant over histories), then C205's equality with the mechanization; error bound by the one-step estimate of C202 from any held state |
| C209 | Kalman update for every dimension, `measureGnss`, reported deviations | Cauchy–Schwarz for the innovation covariance, `P − P' = K S Kᵀ`; innovation length = antenna-to-fix distance |
| C210 | filter state within `e` of a true flight, outstanding correction at most `β`; `e + 20K²β + dt + ε` grows by `1+50K³dt` per sample and by a constant factor per usable fix (gain bound of C209, antenna place Lipschitz in the state, `feedBack` moves every part by at most a multiple of the correction); prefix induction over the calls, C126 for the interface | `Props/FilterStep`, `FilterFollow`, `FilterFlight` |
| C211 | `fileMain` (readers, merge, main loop) with `cfg.gnss.enable`, columns format 0 | the lines are the results after prefixes of the used records (C134, C126); each prefix is a call list for C210 | `Spec/FixFile`, `Props/FixFile` |
| C212 | as C210 | the defect of the covariance (how far below zero its quadratic form gets) grows by O(dt³) per sample because the transition matrix is within O(dt) of the identity along the flight (`PhiBound`) and is multiplied by a bounded factor per fix (`CovForm`), so it stays O(dt²); the gain is then bounded by the configuration | `Spec/CovFlight`, `Props/CovForm`, `Props/PhiBound`, `Props/CovFlight`, `Props/CovRun`, `Props/CovC212` |
| C213 | as C211 | C212 applied to every prefix of the used records | `Props/CovFile` |
| C214 | as C212 | `cov_run`'s bounds on the covariance after every prefix, read off the reported deviations | `Props/CovBound` |
| C215 | as C212 | the innovation is positive definite because the defect is small against the fix's variance; what a fix removes is then a congruence of it | `Props/CovDrop` |
| C216 | as C213 | C214 and C215 applied to the calls behind consecutive lines | `Props/CovLines` |
