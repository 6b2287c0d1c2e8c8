{"id": "C01", "title": "CRC checksum is the CRC-32/MPEG-2 polynomial remainder", "statement": "crc32_checksum(buf,n), computed with the lookup table, equals the bit-by-bit CRC with polynomial 0x04C11DB7, start value 0xFFFFFFFF and no reflection, so both build variants (CRC32_ENABLE_TABLE 0/1) produce interchangeable files.", "quantifier": "every byte string of every length", "why_tests_cant": "tests sample finitely many buffers; a single wrong table entry shows only for buffers reaching that index", "anchors": ["Src/Recorder/comm_crc.c:crc32_checksum", "Src/Recorder/comm_crc.c:crc_table"]}
{"id": "C02", "title": "A written checksum always verifies", "statement": "For every payload, appending the checksum the recorder stores (byte-swapped CRC in little-endian memory) makes crc32_checksum over payload plus checksum equal to zero, which is what the loader tests.", "quantifier": "every payload byte string", "why_tests_cant": "unbounded payload space", "anchors": ["Src/Recorder/Recorder.h:CHECKSUM_RECORDER_CRC32", "Src/Recorder/comm_crc.h:REVERT_CRC32", "Src/Recorder/DataLoader.cpp:LoadFile"]}
{"id": "C03", "title": "Burst corruption of a record is always detected", "statement": "If a checksummed block is changed only inside one window of at most four consecutive bytes, and really changed, the loader's CRC test on it fails.", "quantifier": "every block, every window position, every non-identical replacement", "why_tests_cant": "the set of corruptions is exponential in the block length", "anchors": ["Src/Recorder/comm_crc.c:crc32_checksum", "Src/Recorder/DataLoader.cpp:LoadFile"]}
{"id": "C04", "title": "Recorder file header round-trips", "statement": "For every dataset configuration that fits the header buffer, the header written by Recorder is accepted by DataLoader and yields exactly the same datasets (id, name bytes, item types, item names), in the same order.", "quantifier": "every configuration with distinct ids whose names fit 16 bytes", "why_tests_cant": "configurations are unbounded in number of datasets and items", "anchors": ["Src/Recorder/Recorder.cpp:WriteHeader", "Src/Recorder/DataLoader.cpp:_loadHeader"]}
{"id": "C05", "title": "Recorded data round-trips", "statement": "Loading a file made of a header followed by any sequence of records of the configured datasets returns, for every dataset, the timestamps and item values of its records in the order they were recorded, and reports no error.", "quantifier": "every configuration and every finite sequence of records", "why_tests_cant": "sequences and values are unbounded", "anchors": ["Src/Recorder/Recorder.h:Record", "Src/Recorder/DataLoader.cpp:LoadFile", "Src/Recorder/DataLoader.cpp:AddData", "Src/Recorder/DataLoader.cpp:structMember2Float"]}
{"id": "C06", "title": "Loaded datasets are rectangular", "statement": "Whatever bytes a file holds, after loading every dataset has exactly one value per configured item for every timestamp (so the CSV/Mat export never indexes past a column).", "quantifier": "every sequence of records with arbitrary content fed to the loader", "why_tests_cant": "file contents are unbounded", "anchors": ["Src/Recorder/DataLoader.cpp:AddData", "Src/Recorder/DataLoader.cpp:Save2Csv"]}
{"id": "C07", "title": "Loading terminates", "statement": "DataLoader::LoadFile terminates on every file. (Violated: a record that starts with the record magic and fails its CRC is retried for ever; a record with length field 0 likewise. Proved: it terminates on every file in which no such record is met, and never terminates otherwise.)", "quantifier": "every file content", "why_tests_cant": "non-termination cannot be observed by a finite test", "anchors": ["Src/Recorder/DataLoader.cpp:LoadFile"]}
{"id": "C08", "title": "Unknown datasets are skipped without disturbing the rest", "statement": "A well-formed record whose id is not in the header leaves all loaded datasets unchanged and adds one error message; the rest of the file loads as if the record were absent.", "quantifier": "every loader state and every record", "why_tests_cant": "unbounded states", "anchors": ["Src/Recorder/DataLoader.cpp:AddData"]}
{"id": "C09", "title": "The loader never reads past the file buffer", "statement": "Loading never reads a byte outside the file. (Violated for files whose last 1-3 bytes are reached by the magic scan, and for short or truncated files; proved for recorder-produced files.)", "quantifier": "every file content", "why_tests_cant": "memory errors depend on the whole byte content", "anchors": ["Src/Recorder/DataLoader.cpp:LoadFile", "Src/Recorder/DataLoader.cpp:_loadHeader"]}
{"id": "C10", "title": "Message ids are unambiguous", "statement": "MSG_ID(set,id) distinguishes any two (set,id) pairs with id<256 and set<65536, and the eight built-in datasets have pairwise distinct ids and a header that fits the 4096-byte buffer.", "quantifier": "every pair of set/id values", "why_tests_cant": "pairs are numerous; truncation bugs hide on boundaries", "anchors": ["Src/Recorder/Recorder.h:MSG_ID", "Src/Recorder/RecorderType.h"]}
{"id": "C11", "title": "Status life cycle", "statement": "After a successful rgioe_init, under any sequence of time updates, GNSS updates and queries the status is always one of INIT, ALIGN, ATTITUDE, NAVIGATION, never ERROR, and never goes back to an earlier one.", "quantifier": "every option set, every input history", "why_tests_cant": "histories are unbounded", "anchors": ["Src/rgioe.cpp:rgioe_timeupdate", "Src/rgioe.cpp:rgioe_gnssupdate", "Src/rgioe.cpp:rgioe_get_status"]}
{"id": "C12", "title": "Null inputs are rejected without effect", "statement": "rgioe_timeupdate(NULL) and rgioe_gnssupdate(NULL) return RGIOE_NULL_INPUT and leave the instance, and every later answer, unchanged. (rgioe_init with NULL options is not: it dereferences the pointer before testing it.)", "quantifier": "every instance state", "why_tests_cant": "unbounded states", "anchors": ["Src/rgioe.cpp:rgioe_timeupdate", "Src/rgioe.cpp:rgioe_gnssupdate", "Src/rgioe.cpp:rgioe_init"]}
{"id": "C13", "title": "Queries are read-only", "statement": "rgioe_get_atti/pos/vel/status/result never change the instance: inserting or removing queries anywhere in a history does not change any later answer.", "quantifier": "every history and every placement of queries", "why_tests_cant": "interleavings are unbounded", "anchors": ["Src/rgioe.cpp:rgioe_get_result", "Src/rgioe.cpp:rgioe_get_pos", "Src/DataFusion.cpp:Output"]}
{"id": "C14", "title": "Instances are isolated", "statement": "Although all instances share the Earth singleton (whose gravity field is mutable), operations on one handle never change the result of operations on another: any interleaving of two handles' calls gives each handle the answers it would get alone.", "quantifier": "every pair of histories and every interleaving", "why_tests_cant": "interleavings are unbounded", "anchors": ["Src/Earth.h:Instance", "Src/Earth.cpp:Update", "Src/InsCore.cpp:_extrapolate", "Src/rgioe.cpp"]}
{"id": "C15", "title": "USE_GIVEN starts navigating at the first IMU sample", "statement": "After rgioe_init with align mode USE_GIVEN and an initial state, the first IMU update switches to NAVIGATION and the result then carries that sample's time stamp; GNSS given before it is ignored.", "quantifier": "every option set, initial state, IMU sample and preceding GNSS sequence", "why_tests_cant": "unbounded inputs", "anchors": ["Src/rgioe.cpp:rgioe_init", "Src/rgioe.cpp:rgioe_timeupdate", "Src/InsCore.cpp:makeNavEpoch"]}
{"id": "C16", "title": "Moving alignment needs a static phase and motion", "statement": "With another align mode, NAVIGATION is reached only if at some point more than 200 consecutive IMU samples were classified static (hence at least 202 IMU samples were given) and, between two GNSS fixes, the displacement lay strictly between the velocity threshold and 1000 (hence at least 2 fixes).", "quantifier": "every history", "why_tests_cant": "histories are unbounded", "anchors": ["Src/rgioe.cpp:rgioe_timeupdate", "Src/Alignment.cpp:Update", "Src/StaticDetect.cpp:Update"]}
{"id": "C17", "title": "Alignment progress is never lost", "statement": "Once level alignment (status ATTITUDE) or heading alignment is achieved it stays achieved until rgioe_init; status ATTITUDE implies the level is known and NAVIGATION in align mode implies both were known.", "quantifier": "every history", "why_tests_cant": "histories are unbounded", "anchors": ["Src/Alignment.cpp:Update", "Src/rgioe.cpp:rgioe_timeupdate"]}
{"id": "C18", "title": "Rejected initialisation", "statement": "rgioe_init in USE_GIVEN mode without an initial state returns RGIOE_FAULT_CONFIG. A caller relies on the instance not navigating afterwards. (Violated: the status of a previously navigating instance stays NAVIGATION with a wiped filter.)", "quantifier": "every previous instance state", "why_tests_cant": "depends on arbitrary previous history", "anchors": ["Src/rgioe.cpp:rgioe_init"]}
{"id": "C19", "title": "What rgioe_get_result writes", "statement": "In INIT the caller's record is untouched; in ALIGN only gpst is written; in ATTITUDE only gpst, atti and atti_std; in NAVIGATION every field, from the fused state, whatever the record held before.", "quantifier": "every instance state and every previous record content", "why_tests_cant": "unbounded", "anchors": ["Src/rgioe.cpp:rgioe_get_result"]}
{"id": "C20", "title": "Reported standard deviations belong to the quantity asked for", "statement": "rgioe_get_atti/pos/vel return in std the standard deviation of the attitude/position/velocity. (Violated by rgioe_get_pos, which returns the attitude std.)", "quantifier": "every instance state", "why_tests_cant": "a test sees it only when the two differ", "anchors": ["Src/rgioe.cpp:rgioe_get_pos"]}
{"id": "C21", "title": "Invalid GNSS fixes never touch the estimate", "statement": "In NAVIGATION a GNSS sample whose mode is not SPP, DGPS, FIX or FLOAT changes no navigation quantity, no covariance and no pending correction: only the sensor flag and gnss_mode in the info field.", "quantifier": "every navigation state and every GNSS sample", "why_tests_cant": "unbounded", "anchors": ["Src/DataFusion.cpp:MeasureUpdatePos", "Src/DataFusion.cpp:GnssCheck"]}
{"id": "C22", "title": "Re-initialisation forgets the past", "statement": "After a successful rgioe_init with an initial state, the answers to any later history depend only on the options, the initial state and that history, not on anything done to the instance before (up to the alignment heading rate memory, which C++ leaves uninitialised).", "quantifier": "every two previous instance states and every later history", "why_tests_cant": "histories unbounded", "anchors": ["Src/rgioe.cpp:rgioe_init"]}
{"id": "C23", "title": "Covariance stays symmetric", "statement": "The filter covariance is a symmetric matrix after initialisation and after any sequence of time, GNSS, velocity, height, zero-velocity and non-holonomic updates.", "quantifier": "every option set and every history (exact arithmetic)", "why_tests_cant": "histories are unbounded", "anchors": ["Src/KalmanFilter.hpp:Update", "Src/KalmanFilter.hpp:Predict", "Src/DataFusion.cpp"]}
{"id": "C24", "title": "Measurements never destroy positive semidefiniteness nor add uncertainty", "statement": "For any positive semidefinite covariance and measurement noise, the updated covariance is positive semidefinite; if the innovation covariance is invertible every variance is at most what it was before.", "quantifier": "every state dimension, measurement dimension, H, R, P", "why_tests_cant": "continuum of inputs", "anchors": ["Src/KalmanFilter.hpp:Update"]}
{"id": "C25", "title": "Covariance does not depend on measured values", "statement": "Two filters in the same state given the same measurement model but different measured values have the same covariance afterwards (no chi-square rejection ever takes place).", "quantifier": "every filter state, H, R and pair of measurements", "why_tests_cant": "continuum of inputs", "anchors": ["Src/KalmanFilter.hpp:Update"]}
{"id": "C26", "title": "Time propagation keeps the covariance valid", "statement": "The covariance stays positive semidefinite through time updates. (Violated: the process noise 0.5(phi Q0 + Q0 phi^T)dt is not positive semidefinite whenever velocity random walk is non-zero; proved: prediction preserves positive semidefiniteness whenever the added noise is positive semidefinite.)", "quantifier": "every transition matrix and noise", "why_tests_cant": "continuum of inputs", "anchors": ["Src/DataFusion.cpp:TimeUpdate", "Src/KalmanFilter.hpp:Predict"]}
{"id": "C27", "title": "Every accepted measurement's correction reaches the solution", "statement": "The correction computed from a measurement is eventually fed back to the navigation state. (Violated: a second measurement before the next IMU sample overwrites the first; ZUPT with ZUPTA enabled loses the ZUPT correction; proved: a single GNSS measurement between two IMU samples is applied entirely at the next sample once GNSS has arrived within the last 1000 samples.)", "quantifier": "every state and measurement sequence", "why_tests_cant": "histories are unbounded", "anchors": ["Src/DataFusion.cpp:TimeUpdate", "Src/DataFusion.cpp:MeasureUpdatePos", "Src/DataFusion.cpp:MeasureZeroVelocity"]}
{"id": "C28", "title": "Attitude stays a rotation", "statement": "After every IMU sample in NAVIGATION the attitude quaternion has unit norm, the attitude matrix is its rotation matrix and is orthogonal with determinant one, for any sensor values and any corrections.", "quantifier": "every history (exact arithmetic)", "why_tests_cant": "continuum, unbounded histories", "anchors": ["Src/InsCore.cpp:_atti_update", "Src/DataFusion.cpp:_feedBack", "Src/Convert.cpp"]}
{"id": "C29", "title": "Position quaternion stays a rotation", "statement": "After every IMU sample in NAVIGATION the position quaternion has unit norm and the n-to-e matrix equals the one of the reported latitude/longitude and is a rotation.", "quantifier": "every history (exact arithmetic)", "why_tests_cant": "continuum, unbounded histories", "anchors": ["Src/InsCore.cpp:_position_update", "Src/DataFusion.cpp:_feedBack"]}
{"id": "C30", "title": "Zero-velocity and non-holonomic updates follow their schedule", "statement": "A ZUPT is performed at a time update exactly if ZUPT is enabled, the static detector reports static and the epoch number is not a multiple of 8; an NHC update exactly if NHC is enabled, the odometer disabled and the epoch number is 1 modulo 32.", "quantifier": "every history", "why_tests_cant": "histories are unbounded", "anchors": ["Src/DataFusion.cpp:TimeUpdate"]}
{"id": "C31", "title": "Sensor flags tell the truth", "statement": "After every time update the NHC flag is set exactly if NHC was applied in that epoch, and after every GNSS update the GNSS flag is set exactly if the fix was fused; after an odometer update the odometer flag is set and the NHC flag tells whether the lateral constraint was part of it; after a relative height the height flag tells whether it was fused; flags of other sensors are not disturbed.", "quantifier": "every history", "why_tests_cant": "histories are unbounded", "anchors": ["Src/DataFusion.cpp:TimeUpdate", "Src/DataFusion.cpp:MeasureUpdatePos", "Src/DataFusion.cpp:MeasureUpdateVel", "Src/DataFusion.cpp:MeasureUpdateRelativeHeight"]}
{"id": "C32", "title": "Result time is the last IMU time", "statement": "In NAVIGATION the reported gpst is the time stamp of the last IMU sample, no matter what GNSS, odometer or height measurements arrived.", "quantifier": "every history", "why_tests_cant": "histories are unbounded", "anchors": ["Src/InsCore.cpp:ForwardMechanization", "Src/DataFusion.cpp:Output"]}
{"id": "C33", "title": "Static detection criterion", "statement": "isStatic() is true exactly if more than static_width most recent consecutive updates had a smoothed acceleration deviation not above the threshold; it needs at least static_width+1 samples.", "quantifier": "every sequence of samples, every width and threshold", "why_tests_cant": "unbounded sequences", "anchors": ["Src/StaticDetect.cpp:Update", "Src/StaticDetect.cpp:isStatic"]}
{"id": "C34", "title": "Smoothed IMU statistics are sane", "statement": "The smoothed mean of each axis always lies in the range of values seen so far, is the arithmetic mean until the window is full, and the smoothed variances are never negative.", "quantifier": "every sequence of samples (exact arithmetic)", "why_tests_cant": "unbounded sequences", "anchors": ["Src/StaticDetect.cpp:Update"]}
{"id": "C35", "title": "Relative height update waits for a GNSS base height", "statement": "MeasureUpdateRelativeHeight corrects height only relative to a GNSS height. (Violated: without any GNSS fix the sixth call uses the initial value INT32_MIN as base height; proved: after a GNSS fix the base is that fix's height and the first calls only record the reference.)", "quantifier": "every call sequence", "why_tests_cant": "depends on call counts in unbounded histories", "anchors": ["Src/DataFusion.cpp:MeasureUpdateRelativeHeight"]}
{"id": "C36", "title": "Perfect measurements cause no correction", "statement": "If the GNSS position equals the current solution (lever arm included) the innovation is zero, the correction is zero and the next time update proceeds as if no measurement had arrived (attitude, velocity, biases and position unchanged by the feedback).", "quantifier": "every consistent navigation state", "why_tests_cant": "continuum of states", "anchors": ["Src/DataFusion.cpp:_posZ", "Src/DataFusion.cpp:_feedBack"]}
{"id": "C37", "title": "Reported deviations are the filter's", "statement": "Each reported position/velocity/attitude deviation is non-negative and its square is the corresponding covariance diagonal element whenever that is non-negative.", "quantifier": "every navigation state", "why_tests_cant": "continuum", "anchors": ["Src/DataFusion.cpp:Output"]}
{"id": "C38", "title": "Euler angles to matrix gives a rotation", "statement": "euler_to_dcm returns an orthogonal matrix of determinant one for every roll, pitch, heading.", "quantifier": "every triple of angles (exact arithmetic)", "why_tests_cant": "continuum", "anchors": ["Src/Convert.cpp:euler_to_dcm"]}
{"id": "C39", "title": "Euler angles, quaternion and matrix agree", "statement": "euler_to_quaternion returns a unit quaternion whose rotation matrix is euler_to_dcm of the same angles.", "quantifier": "every triple of angles (exact arithmetic)", "why_tests_cant": "continuum", "anchors": ["Src/Convert.cpp:euler_to_quaternion", "Src/Convert.cpp:quaternion_to_dcm"]}
{"id": "C40", "title": "Euler angles round-trip through the matrix", "statement": "dcm_to_euler(euler_to_dcm(e)) = e for roll and heading in (-pi,pi] and |sin pitch| < 0.999; outside, roll is reported as NaN.", "quantifier": "every such triple (exact arithmetic)", "why_tests_cant": "continuum", "anchors": ["Src/Convert.cpp:dcm_to_euler", "Src/Convert.cpp:euler_to_dcm"]}
{"id": "C41", "title": "Latitude/longitude round-trip through the position quaternion", "statement": "qne_to_lla(lla_to_qne(lat,lon)) = (lat,lon) for |lat|<pi/2, |lon|<pi, and lla_to_qne is a unit quaternion whose matrix is lla_to_cne(lat,lon), a rotation.", "quantifier": "every position off the poles and the date line (exact arithmetic)", "why_tests_cant": "continuum", "anchors": ["Src/Convert.cpp:qne_to_lla", "Src/Convert.cpp:lla_to_qne", "Src/Convert.cpp:lla_to_cne"]}
{"id": "C42", "title": "Skew matrix is the cross product", "statement": "skew(v)*w = v x w for all v, w, so both spellings used in the mechanisation and the measurement models agree; gyro_to_rv of a constant-rate pair is the plain increment.", "quantifier": "every pair of vectors", "why_tests_cant": "continuum", "anchors": ["Src/Convert.cpp:skew", "Src/Convert.cpp:gyro_to_rv"]}
{"id": "C43", "title": "Rotation vectors give usable quaternions", "statement": "rv_to_quaternion never returns the zero quaternion, zero rotation gives identity, rotations of at least half a turn give exactly unit quaternions with non-negative scalar part, smaller ones deviate from unit norm by less than 1e-3 (their scalar part can be slightly negative just below half a turn), so the normalisations after it are always well defined.", "quantifier": "every rotation vector (exact arithmetic)", "why_tests_cant": "continuum", "anchors": ["Src/Convert.cpp:rv_to_quaternion"]}
{"id": "C44", "title": "Ellipsoid radii are sane", "statement": "RM and RN are positive, even in latitude, RM <= RN, and lie between a(1-e2) and a/sqrt(1-e2)^3, so every division by (R+h) is defined for heights above -6000 km.", "quantifier": "every latitude (exact arithmetic)", "why_tests_cant": "continuum", "anchors": ["Src/Earth.cpp:RM", "Src/Earth.cpp:RN"]}
{"id": "C45", "title": "Distances vanish on equal points", "statement": "distance(p,p)=0. (True for the 6-argument form, and antisymmetric in height; violated by the 4-argument form, which passes latitude/longitudes in the wrong order.)", "quantifier": "every pair of points (exact arithmetic)", "why_tests_cant": "continuum", "anchors": ["Src/Earth.cpp:distance"]}
{"id": "C46", "title": "ECEF conversion lies on the ellipsoid", "statement": "lla_to_xyz(lat,lon,0) satisfies the WGS84 ellipsoid equation, and height h displaces the point by exactly h along the ellipsoid normal.", "quantifier": "every latitude, longitude, height (exact arithmetic)", "why_tests_cant": "continuum", "anchors": ["Src/Convert.cpp:lla_to_xyz"]}
{"id": "C47", "title": "AHRS attitude stays a unit quaternion with bounded bias", "statement": "After every AttiAhrs::Update(imu) the quaternion has unit norm, the attitude matrix is its rotation matrix and each integrated bias component is at most one degree in magnitude.", "quantifier": "every sample sequence (exact arithmetic)", "why_tests_cant": "unbounded histories", "anchors": ["Src/AttiAhrs.cpp:Update"]}
{"id": "C48", "title": "Setting the AHRS attitude is visible", "statement": "After SetAtti the attitude read back corresponds to the one set. (True for the Euler form; violated by the quaternion form, which leaves the matrix stale until the next update.)", "quantifier": "every attitude", "why_tests_cant": "continuum", "anchors": ["Src/AttiAhrs.cpp:SetAtti", "Src/AttiAhrs.cpp:GetAtti"]}
{"id": "C49", "title": "Installation angle estimate is orthogonal", "statement": "DcmEstimator's matrix is orthogonal after every update, whatever velocities are fed in. (Not always a rotation: the determinant can be -1.)", "quantifier": "every sequence of updates, assuming the SVD contract", "why_tests_cant": "unbounded sequences", "anchors": ["Src/DcmEstimator.cpp:CalcDcmBySVD"]}
{"id": "C50", "title": "Outage windows", "statement": "IsOutage(t) is true exactly if t lies in [s, s+outage] for some s in start, start+step, ... below stop; invalid configurations (start>stop>0, negative outage, step<outage) never report an outage.", "quantifier": "every configuration with positive step and every time (exact arithmetic)", "why_tests_cant": "continuum", "anchors": ["Src/Outage.cpp:Outage", "Src/Outage.cpp:IsOutage"]}
{"id": "C51", "title": "Outage construction terminates", "statement": "Constructing an Outage terminates. (Violated when step = 0 = outage and start < stop: proved non-termination; proved termination for positive steps.)", "quantifier": "every configuration", "why_tests_cant": "non-termination", "anchors": ["Src/Outage.cpp:Outage"]}
{"id": "C52", "title": "Data sources are merged in time order", "statement": "If each source is sorted by time (and times are below INT_MAX) the records returned by successive GetNextData calls are sorted by time.", "quantifier": "every content of the sources", "why_tests_cant": "unbounded", "anchors": ["App/PostDataFusion/DataManager.cpp:GetNextData", "App/PostDataFusion/DataManager.h:argmin"]}
{"id": "C53", "title": "Each record is delivered once, in its source's order", "statement": "The records delivered from each source are a prefix of that source, each exactly once and in order, and delivery stops exactly when some source is exhausted. (So the tail of the other source is never delivered.)", "quantifier": "every content of the sources, any number of calls", "why_tests_cant": "unbounded", "anchors": ["App/PostDataFusion/DataManager.cpp:GetNextData"]}
{"id": "C54", "title": "Skipping to a start time", "statement": "After MoveToTime(T) on sorted sources no record earlier than T is delivered; exactly one record with time >= T is dropped (the first one), if any source still has data.", "quantifier": "every content and every T", "why_tests_cant": "unbounded", "anchors": ["App/PostDataFusion/DataManager.cpp:MoveToTime"]}
{"id": "C55", "title": "Reset replays the same sequence", "statement": "After Reset, the same sequence of records is delivered again as from the start.", "quantifier": "every content and any number of calls before Reset", "why_tests_cant": "unbounded", "anchors": ["App/PostDataFusion/DataManager.cpp:Reset"]}
{"id": "C56", "title": "The fix quality reaches the filter", "statement": "A GNSS record read from file with a mode the filter rejects is not fused. (Violated: toRgioeData always reports SPP, so every record is fused.)", "quantifier": "every GNSS record", "why_tests_cant": "continuum", "anchors": ["App/PostDataFusion/DataManager.cpp:toRgioeData", "Src/DataFusion.cpp:GnssCheck"]}
{"id": "C57", "title": "Simulated outages hide GNSS completely", "statement": "In post-processing, results are the same as if GNSS records inside an outage window were replaced by no-ops, and one result line is written for every delivered record.", "quantifier": "every input data and outage configuration", "why_tests_cant": "unbounded", "anchors": ["App/PostDataFusion/PostDataFusion.cpp:main"]}
{"id": "C58", "title": "The threaded writer keeps order", "statement": "Under every interleaving of the producer and the writer thread, what has been written is always a prefix of what was submitted, in order, without duplicates.", "quantifier": "every schedule", "why_tests_cant": "schedules are unbounded", "anchors": ["App/AppCommon/FileIO.cpp:NavWriter"]}
{"id": "C59", "title": "Stopping the writer flushes everything", "statement": "After stop() returns everything submitted before has been written. (Violated: the thread leaves its loop as soon as it sees the flag cleared; a schedule losing every submitted record is exhibited. Proved: whatever is in the queue when the flag is last seen set is written.)", "quantifier": "every schedule", "why_tests_cant": "schedules", "anchors": ["App/AppCommon/FileIO.cpp:th_write_nav", "App/AppCommon/FileIO.cpp:stop"]}
{"id": "C60", "title": "Frame conversion", "statement": "The right-front-up to front-right-down conversion is a proper rotation (preserves lengths, dot and cross products) and is its own inverse.", "quantifier": "every sample", "why_tests_cant": "continuum", "anchors": ["App/AppCommon/FileIO.cpp:ReadNext"]}
{"id": "C61", "title": "Binary IMU files are read completely and exactly", "statement": "Reading a WHU binary file of N samples delivers these N samples in order. (Violated at the end: one extra garbage record is delivered; proved: N+1 records of which the first N are the file's.)", "quantifier": "every file of complete samples", "why_tests_cant": "unbounded", "anchors": ["App/AppCommon/FileIO.cpp:IMUReader::ReadNext", "App/PostDataFusion/DataManager.cpp:AddFile"]}
{"id": "C62", "title": "GGA fix quality mapping", "statement": "For GGA files FIX, FLOAT, SPP keep their mode with std 1 mm, 5 mm, 1 m and everything else, including DGPS, becomes INVALID; a record is delivered exactly if its time is positive.", "quantifier": "every mode value", "why_tests_cant": "mode is an arbitrary integer", "anchors": ["App/AppCommon/FileIO.cpp:GnssReader::ReadNext"]}
{"id": "C63", "title": "Saved configurations can be loaded", "statement": "A configuration written with SaveTo can be read with LoadFrom and gives back the same settings. (Violated: LoadFrom requires keys SaveTo never writes, so it throws for every configuration; the keys present round-trip except the truncated velocity threshold.)", "quantifier": "every configuration", "why_tests_cant": "unbounded", "anchors": ["App/AppCommon/Config.cpp:SaveTo", "App/AppCommon/Config.cpp:LoadFrom"]}
{"id": "C64", "title": "Options derived from a configuration", "statement": "GetOption converts angles from degrees to radians, and leaves pos_std, vel_std, atti_std zero, so USE_GIVEN started from a configuration file begins with zero position, velocity and attitude covariance.", "quantifier": "every configuration", "why_tests_cant": "continuum", "anchors": ["App/AppCommon/Config.cpp:GetOption", "Src/DataFusion.cpp:Initialize"]}
{"id": "C65", "title": "Filter state layout", "statement": "For all sixteen combinations of optional states the state blocks are pairwise disjoint, in range and cover the whole state vector of STATE_CNT elements. (Violated: in five of the sixteen builds, where an enabled block follows a disabled one, blocks overlap or leave the vector; proved: it holds exactly in the other eleven, and STATE_CNT is right in all.)", "quantifier": "all build configurations", "why_tests_cant": "each build is a different program; tests see one", "anchors": ["Src/RgioeDefine.h"]}
{"id": "C66", "title": "ADI frame checksum", "statement": "ADIHandleBase::CheckSum accepts intact frames and rejects corrupted ones. (Violated: it accepts exactly the all-zero block.)", "quantifier": "every 20-byte block", "why_tests_cant": "2^160 blocks", "anchors": ["App/RtSimulation/src/navplay/src/AdiHandle.cpp:CheckSum"]}
{"id": "C67", "title": "Raw wheel velocity decoding", "statement": "ConvertVelRawToFloat of the big-endian encoding of any velocity in millimetres per second that fits 16 bits returns that velocity in metres per second.", "quantifier": "all 65536 values per channel", "why_tests_cant": "exhaustive in principle but part of a file format", "anchors": ["App/RtSimulation/src/navplay/src/navplay_node.cpp:ConvertVelRawToFloat"]}
{"id": "C68", "title": "Initial covariance is what the options say", "statement": "After initialisation the position, velocity, attitude and bias variances are the squares of the given deviations and all covariances are zero, and the covariance is positive semidefinite.", "quantifier": "every option set and initial state (exact arithmetic)", "why_tests_cant": "continuum", "anchors": ["Src/DataFusion.cpp:Initialize"]}
{"id": "C69", "title": "IMU error compensation", "statement": "Compensation with zero bias and scale error is the identity, it is affine in the measurement, and a constant bias b contributes exactly (1-s)*b*dt per sample.", "quantifier": "every sample, bias, scale (exact arithmetic)", "why_tests_cant": "continuum", "anchors": ["Src/InsCore.cpp:CompensateIMU"]}
{"id": "C70", "title": "Results never depend on uninitialised memory", "statement": "Every result reported in NAVIGATION is a function of the options, the initial state and the input history only. (True in USE_GIVEN mode; violated by moving alignment, whose first heading uses an uninitialised previous velocity.)", "quantifier": "every content of uninitialised members and every history", "why_tests_cant": "uninitialised memory varies per run; a test sees one value", "anchors": ["Src/Alignment.cpp:Update", "Src/rgioe.cpp:rgioe_init", "Src/DataFusion.cpp:Initialize"]}
{"id": "C71", "title": "Progress is a percentage", "statement": "GetProgress is between 0 and 100, never decreases as records are delivered, and is 100 exactly when every IMU record has been delivered (it divides by zero if the IMU source is empty).", "quantifier": "every content of the sources, any number of GetNextData calls", "why_tests_cant": "unbounded histories and integer rounding", "anchors": ["App/PostDataFusion/DataManager.cpp:GetProgress", "App/PostDataFusion/DataManager.cpp:GetNextData"]}
{"id": "C72", "title": "The configured stop time is honoured", "statement": "Post-processing writes no result for records later than the configured stop-time. (Violated: the stop time has no influence on the run at all.)", "quantifier": "every configuration and input data", "why_tests_cant": "independence of a parameter over all inputs", "anchors": ["App/PostDataFusion/PostDataFusion.cpp:main", "App/AppCommon/Config.h:Config"]}
{"id": "C73", "title": "IMU parameter files: units and all-or-nothing", "statement": "LoadImuPara converts arw (deg/sqrt(h)), vrw (m/s/sqrt(h)), gyro bias (deg/h), acce bias (mGal), scales (ppm) and correlation times (h) to SI units; if any key is missing it reports failure and leaves the configuration unchanged.", "quantifier": "every parameter file and every configuration (conversion in exact arithmetic)", "why_tests_cant": "continuum; every subset of missing keys", "anchors": ["App/AppCommon/Config.cpp:LoadImuPara"]}
{"id": "C74", "title": "Gap statistics of delivered records", "statement": "After delivering n records with positive times the time-check message reports the last gap, the largest gap and the mean gap. (Violated for the mean: elapsed time is divided by the number of records instead of the number of gaps, so it is always too small; last and largest gap are right.)", "quantifier": "every series of positive times of length below 2^32 (exact arithmetic)", "why_tests_cant": "unbounded series", "anchors": ["App/PostDataFusion/DataManager.cpp:Update", "App/PostDataFusion/DataManager.h:DataSeqCheck"]}
{"id": "C75", "title": "Reading a text IMU file ends", "statement": "Reading any text IMU file to its end takes finitely many reads. (Violated: a single token that is not a number makes the reader deliver the same record for ever; proved for files of numbers only.)", "quantifier": "every token sequence", "why_tests_cant": "unbounded files; a hang has no bounded witness", "anchors": ["App/AppCommon/FileIO.cpp:operator>>", "App/PostDataFusion/DataManager.cpp:AddFile"]}
{"id": "C76", "title": "Every usable fix of a GNSS file is delivered", "statement": "Reading a GNSS text file delivers every line with a positive time, in order, and nothing else. (Violated: the first unusable line silently ends the file, a trailing newline adds a record that repeats uninitialised data, and the ten-column format reads through an undefined path; proved: exactly the longest usable prefix is delivered.)", "quantifier": "every file, both usable formats", "why_tests_cant": "unbounded files", "anchors": ["App/AppCommon/FileIO.cpp:GnssReader::ReadNext", "App/PostDataFusion/DataManager.cpp:AddFile"]}
{"id": "C77", "title": "ASCII output is text", "statement": "Choosing the ASCII output format writes text. (Violated for the threaded writer: NavAscii and NavDoubleMatrix are the same enumerator value, so it writes raw doubles; proved for the PVA writer.)", "quantifier": "every format value", "why_tests_cant": "a collision of enumerators, over both writers", "anchors": ["App/AppCommon/FileIO.h:NavFileFormat", "App/AppCommon/FileIO.cpp:th_write_nav"]}
{"id": "C78", "title": "Scale errors drive the same states as biases", "statement": "In builds with scale-factor states, a gyro scale error drives attitude and an accelerometer scale error drives velocity, as the biases of the same sensors do. (Violated: the transition matrix couples gyro scale into the gyro-bias rows and accelerometer scale into the attitude rows; the biases couple as claimed.)", "quantifier": "every filter state in the optional builds", "why_tests_cant": "builds no test compiles", "anchors": ["Src/DataFusion.cpp:TimeUpdate"]}
{"id": "C79", "title": "ADI samples become increments", "statement": "An ADI measurement becomes the front-right-down increment over one sample period, with the configured scale factors applied to the signed raw counts.", "quantifier": "every measurement, rate and gravity (exact arithmetic)", "why_tests_cant": "continuum", "anchors": ["App/RtSimulation/src/navplay/src/AdiHandle.cpp"]}
{"id": "C80", "title": "Odometer scale estimate", "statement": "Fed with odometer speeds and body velocities that are k times these speeds along a fixed direction, DcmEstimator reports the scale factor k (up to its 1e-30 guard). (Violated without an odometer: the scale is then the accumulated velocity times 1e30.)", "quantifier": "every series of updates (exact arithmetic), assuming the SVD contract", "why_tests_cant": "unbounded series, continuum", "anchors": ["Src/DcmEstimator.cpp:Update", "Src/DcmEstimator.cpp:CalcDcmBySVD", "Src/DcmEstimator.cpp:GetScaleFactor"]}
{"id": "C81", "title": "Mechanization follows the navigation equations", "statement": "One IMU step changes velocity, position and attitude at exactly the rates of the strapdown navigation equations (specific force corrected by the estimated bias and scale factor and rotated to north-east-down, plus gravity at the position, minus Coriolis; latitude rate vN/(RM+h), longitude rate vE/((RN+h)cos lat), height rate -vD; body rate corrected by bias and scale factor minus earth and transport rate), in the limit of a short step, whatever the previous sample was.", "quantifier": "every attitude, velocity, regular position, bias, scale factor, measured rates and previous rates (exact arithmetic)", "why_tests_cant": "continuum of states and inputs; a limit", "anchors": ["Src/InsCore.cpp:ForwardMechanization", "Src/InsCore.cpp:_extrapolate", "Src/InsCore.cpp:_velocity_update", "Src/InsCore.cpp:_position_update", "Src/InsCore.cpp:_atti_update", "Src/Earth.cpp"]}
{"id": "C82", "title": "Coning and sculling", "statement": "When the body rate and specific force vary linearly with time over the previous and the current sampling interval, the rotation and velocity increments computed from the two samples contain exactly the coning term (half the integral of accumulated angle × rate) and the sculling term (integral of accumulated angle × force).", "quantifier": "every linear rate and force profile and interval length (exact arithmetic)", "why_tests_cant": "continuum of motions; equality of integrals", "anchors": ["Src/Convert.cpp:gyro_to_rv", "Src/InsCore.cpp:_velocity_update", "Src/InsCore.cpp:_atti_update"]}
{"id": "C83", "title": "Corrections and measurement sensitivities", "statement": "A filter correction x moves the state by the documented error definition (position by x metres north/east and up, velocity by -x, attitude by a rotation x, biases by +x, everything turned with the local frame), and the design matrix used for a GNSS position (with lever arm) and for a wheel velocity (with lever arm and mounting angles) is exactly minus the derivative of the predicted measurement with respect to the correction; for the wheel the only neglected term is the attitude's effect on the earth/transport rate at the lever arm.", "quantifier": "every state away from the poles and the date line, every correction, lever arm, mounting angle and body rate (exact arithmetic)", "why_tests_cant": "continuum of states; derivatives", "anchors": ["Src/DataFusion.cpp:_feedBack", "Src/DataFusion.cpp:_posH", "Src/DataFusion.cpp:_posZ", "Src/DataFusion.cpp:MeasureUpdateVel"]}
{"id": "C84", "title": "Reported result and its units", "statement": "While navigating, rgioe_get_result reports the filter's state: latitude, longitude and attitude in degrees, height in metres, velocity in m/s, gyroscope bias in deg/h, accelerometer bias in mGal, scale factors in ppm; with output projection enabled, the position displaced by the configured body vector in metres and the attitude of the turned frame.", "quantifier": "every navigating state, lever arm and projection angles (exact arithmetic; projection away from poles and gimbal lock)", "why_tests_cant": "continuum of states", "anchors": ["Src/DataFusion.cpp:Output", "Src/rgioe.cpp:rgioe_get_result"]}
{"id": "C85", "title": "Getters agree with the result", "statement": "While navigating, rgioe_get_atti, rgioe_get_pos and rgioe_get_vel return the attitude, the latitude/longitude/height and the velocity that rgioe_get_result reports (rounded to float where the parameter is float), and succeed.", "quantifier": "every navigating state, any arithmetic", "why_tests_cant": "continuum of states", "anchors": ["Src/rgioe.cpp:rgioe_get_atti", "Src/rgioe.cpp:rgioe_get_pos", "Src/rgioe.cpp:rgioe_get_vel"]}
{"id": "C86", "title": "A result can be handed over as initial state", "statement": "Using a reported result as the given initial state of another instance starts it from the same position, velocity, attitude and time.", "quantifier": "every navigating state away from gimbal lock, every option set (exact arithmetic)", "why_tests_cant": "continuum of states", "anchors": ["Src/InsCore.cpp:makeNavEpoch", "Src/DataFusion.cpp:Output"]}
{"id": "C87", "title": "Levelling is right", "statement": "When levelling succeeds for an upright vehicle at rest, the reported roll and pitch are the true ones. (Pitch holds; roll is violated unless roll or pitch is zero: its sine comes out multiplied by the cosine of pitch.)", "quantifier": "every roll and pitch below 90 degrees, every gravity (exact arithmetic)", "why_tests_cant": "continuum of attitudes", "anchors": ["Src/Alignment.cpp:Update"]}
{"id": "C88", "title": "Alignment puts the antenna on the fix", "statement": "When navigation starts after a fix, the filter's position plus the lever arm rotated by the filter's attitude is the fix. (Violated with a mounting yaw angle: the lever arm is rotated before the mounting angle is applied.)", "quantifier": "every fix, lever arm, mounting angle and attitude away from the poles (exact arithmetic)", "why_tests_cant": "continuum", "anchors": ["Src/Alignment.cpp:Update", "Src/rgioe.cpp:rgioe_timeupdate"]}
{"id": "C89", "title": "Alignment velocity and heading", "statement": "When navigation starts after fixes of a uniform motion, the filter's velocity is that of the motion and its heading the course (plus mounting). (Heading holds; velocity is violated: displacements are not divided by the time between fixes, and the vertical component has the wrong sign, so it is right exactly for 1 Hz fixes and level motion.)", "quantifier": "every velocity, fix interval, mounting angle and start position (exact arithmetic)", "why_tests_cant": "continuum", "anchors": ["Src/Alignment.cpp:Update", "Src/Earth.cpp:distance"]}
{"id": "C90", "title": "Initial uncertainty is sensible", "statement": "When navigation starts after moving alignment, the position deviation is that of the fix, the velocity deviation grows with those of the fixes, and a less precise fix never makes the initial attitude look more precise. (The last part is violated: the attitude deviation is 0.3 rad·m divided by the position deviation.)", "quantifier": "every pair of fixes passing the speed test (exact arithmetic)", "why_tests_cant": "continuum", "anchors": ["Src/Alignment.cpp:Update"]}
{"id": "C91", "title": "Static gyroscope mean becomes the bias", "statement": "The mean rotation rate measured during the static phase is the gyroscope bias the filter starts with. (Holds only if levelling succeeds after the last fix; violated otherwise: every later fix replaces it with the configured bias.)", "quantifier": "every static phase and fix history", "why_tests_cant": "depends on the order of events", "anchors": ["Src/Alignment.cpp:Update"]}
{"id": "C92", "title": "Normal gravity follows the published formula", "statement": "The gravity the mechanisation uses is the GRS80 series in latitude with linear and quadratic height terms: symmetric about the equator, between 9.78 and 9.833 m/s² on the ellipsoid, strictly increasing towards the poles, and strictly decreasing with height up to 2000 km (beyond about 2200 km the truncated series grows again).", "quantifier": "every latitude and height", "why_tests_cant": "monotonicity and symmetry are claims over a continuum of positions", "anchors": ["Src/Earth.cpp", "Earth::Update"]}
{"id": "C93", "title": "The error-state transition is the derivative of the navigation equations", "statement": "For every consistent navigation state, every measured sample and every error vector, the derivative with respect to the step length of the transition matrix applied to the error equals the exact first-order variation of the position, velocity and attitude rates when the navigation solution is corrected by that error (except for a bounded part of the gravity gradient), and the covariance and error estimate propagated by the filter follow dP/dt = A P + P Aᵀ + Q and dx/dt = A x.", "quantifier": "every state, sample, error vector and gravity model", "why_tests_cant": "a sign or coefficient error in one of the blocks shows only as slow inconsistency in a long run", "anchors": ["Src/DataFusion.cpp", "DataFusion::TransferMatrix", "DataFusion::TimeUpdate", "KalmanFilter::Predict"]}
{"id": "C94", "title": "Every measurement update leaves exactly the weighted share of its innovation", "statement": "After an update the part of the innovation not explained by the estimated error is R (H P Hᵀ + R)⁻¹ times the innovation; so for a zero-velocity, zero-rate, relative-height, odometer or non-holonomic update the corrected solution lies between the old solution and the measurement, never farther away than before, and a perfect measurement is reproduced exactly.", "quantifier": "every filter state with a valid covariance and every measurement", "why_tests_cant": "a wrong row, sign or noise entry still moves the state; only the exact share tells", "anchors": ["Src/KalmanFilter.cpp", "KalmanFilter::Update", "Src/DataFusion.cpp", "DataFusion::MeasureZeroVelocity", "DataFusion::MeasureUpdateVel", "DataFusion::MeasureUpdateRelativeHeight", "DataFusion::MeasureNHC"]}
{"id": "C95", "title": "The filter's gain is the best linear gain", "statement": "No other gain applied to the same measurement yields a smaller error covariance than the one the filter reports after the update: the covariance of the estimate under any gain L minus the filter's covariance is positive semidefinite.", "quantifier": "every valid covariance, measurement matrix, noise and alternative gain", "why_tests_cant": "compares against an infinite family of alternative estimators", "anchors": ["Src/KalmanFilter.cpp", "KalmanFilter::Update"]}
{"id": "C96", "title": "A correction is applied once, in shares fixed by the measurement spacing", "statement": "After any history, the correction computed by a measurement is fed back at the next IMU sample divided by n, where n is 1 as soon as some measurement epoch came within 1000 samples of the previous one (or of the start) and 1000 otherwise; undisturbed, it is fed back in exactly n equal shares at the next n samples and not at all afterwards; the outage, update and sample counters hold what their names say.", "quantifier": "every history of calls with fewer than 2^32 IMU samples and every arithmetic", "why_tests_cant": "the share depends on the spacing of all measurements so far and on outages of more than 1000 samples", "anchors": ["Src/DataFusion.cpp", "DataFusion::TimeUpdate", "Src/DataFusion.h", "DataFusion::Monitor"]}
{"id": "C97", "title": "Each build option switches on the state it names", "statement": "The CMake options for gyroscope scale, accelerometer scale, lever arm and odometer scale each add exactly the filter states of the quantity they name, and no other, in every combination; the states added lie behind the fifteen fixed ones and inside the state vector.", "quantifier": "all combinations of the CMake options and of the compile-time switches", "why_tests_cant": "each combination is a separate program; a test suite builds one of them", "anchors": ["Src/RgioeDefine.h", "STATE_GNSS_LEVEL_ARM_START", "STATE_CNT", "App/PostDataFusion/CMakeLists.txt"]}
{"id": "C98", "title": "Builds with optional states run", "statement": "A build with optional states behaves like the default build when no optional state is selected, and otherwise accepts every history of IMU samples and measurements without undefined behaviour.", "quantifier": "every configuration, every history, every arithmetic", "why_tests_cant": "needs every history in sixteen different programs; undefined behaviour need not show", "anchors": ["Src/DataFusion.cpp", "DataFusion::_feedBack", "Src/KalmanFilter.hpp", "Vec1X"]}
{"id": "C99", "title": "Scale-factor errors enter the equation they disturb", "statement": "In a build that estimates scale factors, an error of the gyroscope (accelerometer) scale factors propagates into the attitude (velocity) error of the next step, by the amount it changes the compensated increment.", "quantifier": "every build with scale factors, every filter state and every scale-factor error", "why_tests_cant": "a misplaced block leaves a filter that runs and even converges on benign data", "anchors": ["Src/DataFusion.cpp", "DataFusion::TransferMatrix", "Src/InsCore.cpp"]}
{"id": "C100", "title": "The lever-arm columns predict the effect of a lever-arm error", "statement": "In a build that estimates the antenna lever arm, the measurement matrix times a lever-arm error is the negative change of the position innovation that error causes, component by component, in metres.", "quantifier": "every build with the lever arm, every filter state, every lever-arm error", "why_tests_cant": "a wrong sign or unit in a sensitivity matrix is only visible as slow divergence", "anchors": ["Src/DataFusion.cpp", "DataFusion::_posH", "DataFusion::_posZ"]}
{"id": "C101", "title": "Every state starts with the variance it was given", "statement": "After initialisation the covariance is diagonal and the variance of every state, fixed or optional, is the square of its configured standard deviation.", "quantifier": "every build, every initial epoch and configuration", "why_tests_cant": "sixteen different programs and every configuration", "anchors": ["Src/DataFusion.cpp", "DataFusion::Initialize"]}
{"id": "C102", "title": "The odometer scale is estimated when the build says so", "statement": "In a build that estimates the odometer scale, odometer measurements that disagree with the inertial velocity make the filter correct the scale.", "quantifier": "every history of IMU samples and measurements", "why_tests_cant": "a missing column is invisible in any single update", "anchors": ["Src/DataFusion.cpp", "DataFusion::MeasureUpdateVel", "STATE_ODOMETER_SCALE_FACTOR_START"]}
{"id": "C103", "title": "A recording is the history", "statement": "In the recording build, whatever calls are made on however many devices: the imu dataset of the log has exactly one row per IMU sample a device navigated with, in call order, under the sample's own time and with its values; the kalman dataset one row per such sample with the biases rgioe_get_result reports right after it; the gnss dataset one row per fix given to a navigating device, usable or not; the meas_pos dataset one row per usable one; the result dataset one row per rgioe_get_result, with the status, time, velocity and attitude handed to the caller. The file loads back without error and holds exactly these rows.", "quantifier": "all interleaved call histories on any number of devices, all float encodings", "why_tests_cant": "the set of histories is infinite; a test replays a few", "anchors": ["Src/DataFusion.cpp: TimeUpdate, MeasureUpdatePos", "Src/rgioe.cpp: rgioe_get_result", "Src/Recorder/Recorder.h: Record"]}
{"id": "C104", "title": "Recorded result position is in metres", "statement": "The position columns of a result row are the displacement from the recording's origin in metres. (Violated: degrees are passed where radians are expected, so the north column is more than 56 times too large.)", "quantifier": "all navigating devices, reported positions and origins", "why_tests_cant": "needs every latitude and height", "anchors": ["Src/rgioe.cpp: rgioe_get_result"]}
{"id": "C105", "title": "Recorded result position is relative to the device's own start", "statement": "Each device's result rows are relative to that device's first reported position. (Violated: the origin is the first position reported by any device of the process, for ever.)", "quantifier": "all interleaved histories", "why_tests_cant": "depends on every earlier call of the process", "anchors": ["Src/rgioe.cpp: rgioe_get_result first_pos"]}
{"id": "C106", "title": "GNSS quality columns", "statement": "The gnss rows carry the number of satellites, dilution of precision and fix counter. (Violated: ns, hdop, pdop and gnss_cnt are zero in every row of every recording, and the time stamp is the filter's, not the fix's.)", "quantifier": "all interleaved histories", "why_tests_cant": "needs every fix and history", "anchors": ["Src/DataFusion.cpp: MeasureUpdatePos"]}
{"id": "C107", "title": "Configured outages in PostDataFusion_old", "statement": "PostDataFusion_old, like PostDataFusion, must not let the fixes inside the configured outage windows influence its output (it builds the outage object and tests each fix against it).", "quantifier": "all configurations (outage on or off, any windows), GNSS and IMU records, initial memory", "why_tests_cant": "an outage run has to be compared with a run on data without the hidden fixes for every window placement", "anchors": ["App/PostDataFusion/PostDataFusion_old.cpp:main", "Src/Outage.cpp:Outage::IsOutage"]}
{"id": "C108", "title": "Each fix is used once by PostDataFusion_old", "statement": "PostDataFusion_old hands each fix to the filter exactly once, at the sample nearest to it.", "quantifier": "all record sequences, all sampling rates and all positions of a fix between two samples", "why_tests_cant": "depends on the phase of every fix relative to the IMU samples", "anchors": ["App/PostDataFusion/PostDataFusion_old.cpp:main"]}
{"id": "C109", "title": "PostDataFusion_old never dereferences a null pointer", "statement": "Processing never touches a sample that has not been read: whatever the order of the records the loop runs to the end of the data.", "quantifier": "all configurations, GNSS and IMU records", "why_tests_cant": "it depends on which source has the first record after the start time", "anchors": ["App/PostDataFusion/PostDataFusion_old.cpp:main"]}
{"id": "C110", "title": "PostDataFusion_old is a replay through the API that writes only while navigating", "statement": "The program hands each processed sample to the API once and in order, hands the latest fix over after a record exactly if the latest sample is close to it, and then writes one line with the current result exactly if the device is in the navigation status.", "quantifier": "all configurations, GNSS and IMU records, initial memory", "why_tests_cant": "ranges over whole data sets and all statuses the device goes through", "anchors": ["App/PostDataFusion/PostDataFusion_old.cpp:main", "Src/rgioe.cpp:rgioe_get_result"]}
{"id": "C111", "title": "The option enable_gnss", "statement": "A device initialised with enable_gnss = 0 must not let GNSS fixes influence its answers.", "quantifier": "all histories of API calls, all options", "why_tests_cant": "the switch would have to be tried in every state and with every fix", "anchors": ["Src/RgioeDataType.h:RgioeOption", "Src/rgioe.cpp:rgioe_gnssupdate"]}
{"id": "C112", "title": "Every setting of the configuration file takes effect", "statement": "Each key of the configuration that describes processing (stop time, RTS smoothing, double antenna baseline, odometer file and quality, static detector window/width/threshold, pressure sensor) influences the result it is documented to influence.", "quantifier": "all pairs of configurations differing in these settings, all data, all initial memory", "why_tests_cant": "an ignored setting can only be established over all data", "anchors": ["App/AppCommon/Config.h:Config", "App/AppCommon/Config.cpp:Config::GetOption", "App/PostDataFusion/PostDataFusion.cpp:main"]}
{"id": "C113", "title": "scale-of-std scales the standard deviation", "statement": "With gnss_std_scale = s a fix with standard deviation sigma is weighted like a fix with standard deviation s*sigma and scale 1.", "quantifier": "all filter states, usable fixes and scales", "why_tests_cant": "an equality of filter states for all of them", "anchors": ["Src/DataFusion.cpp:DataFusion::MeasureUpdatePos", "Src/RgioeDataType.h:RgioeOption"]}
{"id": "C114", "title": "CSV export is exactly the recording", "statement": "For every recording made with a dataset table, the CSV file exported for a dataset, cut at newlines and commas, is: a heading with 'time' and the item names, then one line per recorded message of that dataset in order, holding its time and values; each line ends with an empty cell.", "quantifier": "all dataset tables, all message sequences, all number formats that print no comma or newline", "why_tests_cant": "The claim ranges over every recording, table and load moment; a test sees a few files.", "anchors": ["Src/Recorder/DataLoader.cpp: DataLoaderCsvWriter::Save2Csv, DataLoader::AddData"]}
{"id": "C115", "title": "CSV times keep the samples apart", "statement": "Samples with different times get different time cells in the CSV export. (Violated: times are printed with six significant digits, so from second 100000 of the GPS week on every time becomes a whole second and all samples within half a second of it share one cell; proved: what resolution is left in each decade.)", "quantifier": "all pairs of sample times", "why_tests_cant": "The claim ranges over every recording, table and load moment; a test sees a few files.", "anchors": ["Src/Recorder/DataLoader.cpp: DataLoaderCsvWriter::Save2Csv"]}
{"id": "C116", "title": "Mat export: matrix complete, column names complete", "statement": "The Mat export of a loaded dataset is a matrix with one row per message, times in the first column and item j in column j+1, and a list naming every column. (Violated for the names: the last item's name is never exported. Proved for the matrix.)", "quantifier": "all loaded datasets", "why_tests_cant": "The claim ranges over every recording, table and load moment; a test sees a few files.", "anchors": ["Src/Recorder/DataLoader.cpp: DataLoaderMatWriter::Save2Mat"]}
{"id": "C117", "title": "Progress is a percentage", "statement": "GetProgress returns a number between 0 and 100 at any time, 100 when the file is loaded. (Violated: division by zero before a file is loaded; 101 after loading a recording of 100 bytes or less. Proved at every moment of loading any file of more than 500 bytes.)", "quantifier": "all files, all moments of the load", "why_tests_cant": "The claim ranges over every recording, table and load moment; a test sees a few files.", "anchors": ["Src/Recorder/DataLoader.cpp: DataLoader::GetProgress, DataLoader::LoadFile"]}
{"id": "C118", "title": "The summary fits its buffer", "statement": "GetSummaryString never writes outside its buffer. (Violated: the text is printed unbounded into 4096 bytes, and a file with 256 records of unknown datasets overflows it although it loads without error code. Proved for recordings of configured datasets with at most 50 datasets.)", "quantifier": "all recordings, all number formats", "why_tests_cant": "The claim ranges over every recording, table and load moment; a test sees a few files.", "anchors": ["Src/Recorder/DataLoader.cpp: DataLoader::GetSummaryString"]}
{"id": "C119", "title": "Re-initialising a used filter", "statement": "Calling Initialize on a filter that has already processed data makes it behave like a new filter initialised the same way. (Violated: outstanding shares of the old correction - up to 999 samples' worth - are applied to the new state, and the standstill detector keeps its memory, so a zero-velocity update can happen at the first sample. Proved: navigation state, covariance, options, lever arms and the pseudo-measurement schedule do restart from any previous state.)", "quantifier": "all previous filter states, all arguments, all later histories", "why_tests_cant": "Needs every previous history of the filter.", "anchors": ["Src/DataFusion.cpp: DataFusion::Initialize, DataFusion::TimeUpdate"]}
{"id": "C120", "title": "Reported latitude and longitude are geodetic", "statement": "The reported latitude is in [-90°,90°] and the longitude in (-180°,180°]; fixes may be given with longitudes in either 0..360 or -180..180 convention. (Violated for the reports: a place east of the date line is reported beyond 180°, and one past the north pole at -270°+d. Proved: the ranges that do hold for every state, when the latitude is valid, and that a fix's longitude may be given modulo 360°.)", "quantifier": "all position quaternions, all fixes and filter states", "why_tests_cant": "Ranges over all states and all fixes.", "anchors": ["Src/Convert.cpp: Convert::qne_to_lla, Convert::lla_to_qne", "Src/DataFusion.cpp: DataFusion::MeasureUpdatePos"]}
{"id": "C121", "title": "Samples are integrated over their own time stamps", "statement": "For every history of calls after initialisation, the motion reported depends on the time stamps of the samples: a sample is integrated over the time since the previous one. (Violated: no time stamp of an IMU sample, and not the given start time, has any influence on anything but the reported time; stamps of GNSS fixes are ignored while navigating. Exact: two histories that differ in stamps only give the same answers except for the reported time. Holds: the reported time is that of the last sample.)", "quantifier": "every history of API calls after a successful initialisation, every arithmetic", "why_tests_cant": "a test uses regularly stamped samples, where integrating over the nominal period and over the stamps agree", "anchors": ["Src/DataFusion.cpp:TimeUpdate", "Src/InsCore.cpp:ForwardMechanization", "Src/rgioe.cpp:rgioe_timeupdate"]}
{"id": "C122", "title": "The attitude follows the vehicle between levelling and navigation", "statement": "After levelling has succeeded, a rotation measured by the gyroscope is part of the attitude reported and of the attitude the filter starts with. (Violated: from levelling until the sample that starts navigation, that one included, neither the rates nor the accelerations of any sample influence any answer or the state the filter starts with.)", "quantifier": "every history of API calls, every arithmetic", "why_tests_cant": "a test may rotate the vehicle in one history; that no measured motion whatsoever has an effect is a statement about pairs of histories", "anchors": ["Src/Alignment.cpp:Update", "Src/rgioe.cpp:rgioe_timeupdate"]}
{"id": "C123", "title": "Fixes received before the vehicle moves leave the levelled roll and pitch", "statement": "While the alignment waits for the vehicle to move, GNSS fixes do not change the reported roll and pitch. (Violated when a mounting yaw angle is configured: every fix turns the attitude by this angle once more, so after n fixes the reported attitude, and the roll and pitch the filter later starts with, are those of the levelled attitude turned by n times the angle. Holds without a mounting yaw.)", "quantifier": "every history of samples and slow fixes, of any length, in exact arithmetic", "why_tests_cant": "a test with one fix, or with a mounting angle of zero, sees nothing; the accumulation is over any number of fixes", "anchors": ["Src/Alignment.cpp:Update", "Src/rgioe.cpp:rgioe_get_result", "Src/Convert.cpp"]}
{"id": "C124", "title": "One value that is not a number does not destroy the solution for good", "statement": "A single sample or fix containing a not-a-number does not make all later results not-a-number. (Violated: while navigating, one such component of one sample, or one coordinate of one accepted fix, makes every reported velocity not-a-number in every continuation without re-initialisation. While the alignment waits for rest, one such acceleration makes it declare itself levelled after at most 200 more samples whatever the vehicle does, with roll and pitch not-a-number from then on. Holds for fixes of unusable quality.)", "quantifier": "every history of API calls, every arithmetic with an absorbing not-a-number", "why_tests_cant": "the claim is about every continuation of arbitrary length after the bad input", "anchors": ["Src/rgioe.cpp:rgioe_timeupdate", "Src/InsCore.cpp:ForwardMechanization", "Src/StaticDetect.cpp:Update", "Src/Alignment.cpp:Update", "Src/DataFusion.cpp:_feedBack"]}
{"id": "C125", "title": "A vehicle at rest stays at rest", "statement": "Started from a given place, attitude and zero velocity, an instance whose compensated gyroscope increments are exactly the earth's rotation in body axes and whose compensated accelerometer increments balance gravity (the physical reaction up to 2e-11 of it at sampling intervals up to 0.1 s) reports exactly the given place, attitude, zero velocity and the given sensor errors after any number of samples, perfect or unusable fixes, zero-velocity, non-holonomic and standing odometer updates. The zero-angular-rate update breaks this: it learns the earth's rotation as a gyroscope bias.", "quantifier": "every place off the poles and the date line, every attitude off gimbal lock, every sampling rate, every option set without zero-angular-rate updates, every history of such samples and measurements", "why_tests_cant": "a drift per step far below test tolerances accumulates over days; exactness for every attitude, place and history length is not a finite set of runs", "anchors": ["Src/InsCore.cpp: ForwardMechanization", "Src/DataFusion.cpp: TimeUpdate, MeasureUpdatePos, MeasureZeroVelocity, MeasureNHC, _feedBack", "Src/rgioe.cpp: rgioe_timeupdate, rgioe_get_result"]}
{"id": "C126", "title": "While navigating, the C interface is the filter", "statement": "From the moment an instance navigates, every history of samples, fixes, queries and absent arguments does to the filter exactly what the filter's own calls do, in order and nothing else, and every query reports that filter. Started from given values the filter is the one initialised with those values at the first sample, fixes before it are without effect; after an alignment it is the one initialised with the aligned state, and the last alignment sample is not integrated.", "quantifier": "every arithmetic, every instance state, every history without re-initialisation, every start mode", "why_tests_cant": "a statement about all interleavings of samples, fixes and queries", "anchors": ["Src/rgioe.cpp: rgioe_timeupdate, rgioe_gnssupdate, rgioe_get_result, rgioe_get_atti, rgioe_get_pos, rgioe_get_vel"]}
{"id": "C127", "title": "Rounding errors do not pile up in attitude and position", "statement": "However many samples and measurements are processed and whatever their values, right after an IMU sample processed in NAVIGATION the attitude and position quaternions have unit length, and the body-to-navigation and navigation-to-earth matrices are orthogonal with determinant one, up to a fixed multiple of one rounding error of the arithmetic. The multiple does not grow with the length of the history.", "quantifier": "all arithmetics with relative-plus-absolute rounding error at most u <= 1e-6 per operation and sine/cosine accurate to u (IEEE single and double without overflow qualify), all options, initial states, sensor values and histories of API calls of any length", "why_tests_cant": "Drift of a quaternion norm through rounding shows only after millions of steps, and depends on every rounding on the way; a test sees one history on one machine.", "anchors": ["Src/InsCore.cpp: _atti_update, _position_update", "Src/DataFusion.cpp: _feedBack", "Src/Convert.cpp: rv_to_quaternion, quaternion_to_dcm, euler_to_quaternion, lla_to_qne, lla_to_cne", "Src/rgioe.cpp: rgioe_timeupdate"]}
{"id": "C128", "title": "Fixes bound the reported position uncertainty", "statement": "When a navigating instance without antenna lever arm receives n usable GNSS fixes between two IMU samples, each with positive deviations of at most sigma on an axis, the position deviation it reports on that axis afterwards is non-negative and at most sigma*sqrt(gnss_std_scale/n), whatever it reported before and whatever the fixes said; with a lever arm the same holds of the covariance of the antenna position.", "quantifier": "every navigating state with a valid covariance, every non-empty list of fixes, every bound, every axis (and every direction in space for the antenna)", "why_tests_cant": "the bound must hold for every prior covariance and any number of fixes", "anchors": ["Src/DataFusion.cpp MeasureUpdatePos", "Src/DataFusion.cpp _posH", "Src/KalmanFilter.hpp Update", "Src/rgioe.cpp rgioe_gnssupdate", "Src/rgioe.cpp rgioe_get_result"]}
{"id": "C129", "title": "The order of measurements between two IMU samples does not matter", "statement": "Measurements handed over between two IMU samples can be given in any order: afterwards the covariance, and so every reported deviation, and the correction that will be applied are the same. The covariance depends on the measurements only through the sum of their informations HᵀR⁻¹H, which adds to the inverse covariance.", "quantifier": "every valid covariance, every list of measurements of any kind and dimension with positive-definite noise, every permutation", "why_tests_cant": "all orders of arbitrarily many measurements", "anchors": ["Src/KalmanFilter.hpp Update", "Src/DataFusion.cpp MeasureUpdatePos", "Src/rgioe.cpp rgioe_gnssupdate"]}
{"id": "C130", "title": "A rotation vector converts to the matrix of its rotation", "statement": "For every rotation vector, rv_to_DCM gives the rotation by the vector's length about it: a rotation matrix with that axis and angle, equal to the matrix of the exact quaternion; the opposite vector gives the inverse; the zero vector gives the identity.", "quantifier": "every rotation vector", "why_tests_cant": "continuum of vectors, and a single exceptional one", "anchors": ["Src/Convert.cpp rv_to_DCM", "Src/Convert.cpp quaternion_to_dcm"]}
{"id": "C131", "title": "Reported variances are never negative", "statement": "After every call the variances behind the reported deviations are non-negative, so that every reported deviation is a number: in particular after the first IMU sample of an instance set up from a configuration file with a given start and the non-holonomic constraint.", "quantifier": "every first sample, position, attitude, velocity and setting; every state with a valid covariance", "why_tests_cant": "the sign of an entry of the covariance for every sample and setting", "anchors": ["Src/DataFusion.cpp TimeUpdate", "Src/DataFusion.cpp MeasureUpdateVel", "Src/DataFusion.cpp MeasureNHC", "Src/KalmanFilter.hpp Update", "App/Util/Config.cpp GetOption"]}
{"id": "C132", "title": "A zero-velocity update bounds the reported velocity uncertainty", "statement": "When an IMU sample triggers a zero-velocity update (and no non-holonomic one), the velocity deviations reported next are at most zupt_std, whatever they were before, with or without the zero-angular-rate part.", "quantifier": "every history before it, every option set, every axis", "why_tests_cant": "every prior covariance and history", "anchors": ["Src/DataFusion.cpp MeasureZeroVelocity", "Src/DataFusion.cpp TimeUpdate", "Src/rgioe.cpp rgioe_get_result"]}
{"id": "C133", "title": "Instances in separate threads do not disturb each other", "statement": "Two instances, each used by its own thread with no locking between them, behave as if each ran alone: the state after every call and every result obtained are those of its own calls, for every interleaving.", "quantifier": "any number of instances and threads, every list of calls of each, every interleaving of their steps", "why_tests_cant": "all schedules, not the ones a test run happens to see", "anchors": ["Src/Earth.h Earth::Instance", "Src/DataFusion.cpp TransferMatrix", "Src/DataFusion.cpp Output", "Src/InsCore.cpp _extrapolate", "Src/rgioe.cpp rgioe_get_result"]}
{"id": "C134", "title": "From input files to the result file", "statement": "With a start from given values, PostDataFusion on a text file of samples and a seven-column file of fixes writes one line per record of the two files merged by time from the configured start on; from the first sample on each line is the result of the filter, started from the configured state, after exactly the records up to that line (fixes inside a configured outage left out). A final newline in the sample file changes none of these lines.", "quantifier": "every list of samples, every list of fixes with positive times, every configuration with a given start, every content of uninitialised memory, every arithmetic", "why_tests_cant": "all file contents and configurations at once; a test compares a few runs", "anchors": ["App/PostDataFusion/PostDataFusion.cpp main", "App/PostDataFusion/DataManager.cpp AddFile", "App/AppCommon/FileIO.cpp IMUReader::ReadNext", "App/AppCommon/FileIO.cpp GnssReader::ReadNext", "Src/rgioe.cpp rgioe_timeupdate", "Src/DataFusion.cpp TimeUpdate"]}
{"id": "C135", "title": "Every file format the configuration accepts is processed", "statement": "For every value of the format settings that the configuration accepts, PostDataFusion reads the files and ends with a result; the samples in the file reach the filter.", "quantifier": "every format value and every file content", "why_tests_cant": "all file contents, including ones nobody thought of", "anchors": ["App/AppCommon/FileIO.cpp IMUReader::ReadNext", "App/AppCommon/FileIO.cpp GnssReader::ReadNext", "App/AppCommon/FileIO.h IMUFileFormat", "App/AppCommon/Config.cpp LoadFrom", "App/PostDataFusion/DataManager.cpp AddFile"]}
{"id": "C136", "title": "The attitude reference filter levels a device at rest", "statement": "With a device at rest (no rotation, specific force opposite to gravity in the front-right-down body frame of the IMU samples) every AttiAhrs::Update moves the estimated vertical towards the true one, or keeps it there.", "quantifier": "every attitude set, every sampling interval up to a second, every gravity above 0.5 m/s², every true attitude", "why_tests_cant": "all attitudes and intervals at once; a test picks one and sees the slow drift only after many samples", "anchors": ["Src/AttiAhrs.cpp Update", "Src/AttiAhrs.h AttiAhrs", "Include/rgioe.h RgioeImuData"]}
{"id": "C137", "title": "The magnetometer form of the attitude filter keeps a rotation", "statement": "After any number of AttiAhrs::Update(gyro, acc, mag) calls the attitude held is a rotation; the correction vanishes when the accelerometer and magnetometer agree with the attitude.", "quantifier": "every number of updates and every measurement", "why_tests_cant": "the loss per call is tiny and only unbounded repetition shows it", "anchors": ["Src/AttiAhrs.cpp Update(gyro,acc,mag)"]}
{"id": "C138", "title": "A device may run for any length of time", "statement": "However many samples a device is given, no counter it keeps leaves the range of its type.", "quantifier": "every history of calls, unbounded in length", "why_tests_cant": "needs 2^31 samples (half a year at 125 Hz)", "anchors": ["Src/StaticDetect.cpp IMUSmooth::Update", "Src/StaticDetect.h IMUSmooth", "Inc/rgioe.h rgioe_timeupdate"]}
{"id": "C139", "title": "The replay player publishes every record once, in order and at the chosen speed", "statement": "The player publishes the records of a raw file from the first one with a positive time on, once each and in order, then one end marker and nothing more; the parameters real_time and speed_up set the pace.", "quantifier": "every file, every sequence of timer events and their times, every parameter value", "why_tests_cant": "all files and event sequences at once", "anchors": ["App/RtSimulation/src/navplay/src/navplay_node.cpp Beats", "App/RtSimulation/src/navplay/src/NavRawReader.cpp ReadNext"]}
{"id": "C140", "title": "The simulation node uses every sample and every fix it receives", "statement": "Every sample and every usable fix received by the simulation node is handed to the navigation, once and in order, until the player's end marker, which ends the run.", "quantifier": "every schedule of callbacks and main loop, every behaviour of the engine", "why_tests_cant": "depends on the interleaving of callbacks and the main loop", "anchors": ["App/RtSimulation/src/navplay/src/rtsim_fusion_node.cpp main", "App/RtSimulation/src/navplay/src/rtsim_fusion_node.cpp OnImuMsgCallBack"]}
{"id": "C141", "title": "The debug message of the simulation node reports the deviations", "statement": "The debug message carries the position, velocity and attitude deviations and the biases of the result.", "quantifier": "every result", "why_tests_cant": "a test comparing one field does not see another field copied twice", "anchors": ["App/RtSimulation/src/navplay/src/rtsim_fusion_node.cpp publishDebugInfo"]}
{"id": "C142", "title": "Rates are taken at the middle of the sampling interval", "statement": "Over one IMU sample the height changes by the mean of the down velocities before and after the sample times the interval, and the attitude is corrected for the rotation of the local frame (earth rate plus transport rate) at the middle of the interval: mean velocity, mean height, mean latitude (the source comment says so).", "quantifier": "every state of the mechanization, every sample, every sampling interval", "why_tests_cant": "continuum of states; the error is a fraction of the earth rate, far below any test tolerance", "anchors": ["Src/InsCore.cpp:_position_update", "Src/InsCore.cpp:_atti_update", "Src/InsCore.cpp:_velocity_update", "Src/InsCore.h Ins"]}
{"id": "C143", "title": "For linear errors the filter is the best linear estimator and its covariance is true", "statement": "When the error develops linearly with the matrices the filter is given, and the noises have the covariances it is given and are uncorrelated with everything before, then after every sequence of Predict and Update calls (each correction taken off the estimate) the covariance the filter carries is the covariance of the remaining error, so a reported deviation is its root mean square; and no correction linear in all the innovations measured so far would leave a smaller error.", "quantifier": "every dimension, every sequence of predictions and measurements of any sizes, all matrices, every probability distribution with finite variances (exact arithmetic)", "why_tests_cant": "a statement about expectations over all noise, and over all other estimators", "anchors": ["Src/KalmanFilter.hpp:Update", "Src/KalmanFilter.hpp:Predict", "Src/KalmanFilter.hpp:KalmanFilter"]}
{"id": "C144", "title": "Alignment works across the date line", "statement": "Fixes may give longitudes in any convention (modulo 360 degrees), also from one fix to the next when the date line is crossed: the velocity and heading navigation starts with are those of the motion.", "quantifier": "every device being aligned, every three fixes, every sample", "why_tests_cant": "all fixes and all states; test tracks do not cross the date line", "anchors": ["Src/Alignment.cpp:AlignMoving::Update", "Src/Earth.cpp:distance", "Inc/rgioe.h rgioe_gnssupdate"]}
{"id": "C145", "title": "A run started from the configuration window uses what the form shows", "statement": "Every processing run that the configuration window starts is started with the configuration the form shows at that moment, whatever was edited, opened or rejected before.", "quantifier": "every history of edits, opens, starts and log clearings; every text in every field; every parameter file", "why_tests_cant": "all texts and all histories of the window", "anchors": ["App/UiDataFusion/datafusionwindow.cpp:on_btnStart_clicked", "App/UiDataFusion/datafusionwindow.cpp:OnConvertResult"]}
{"id": "C146", "title": "Start either runs or says what is wrong", "statement": "Pressing start begins a run exactly when every field checked reads as a number and the parameter file can be read; otherwise nothing is run, the log names what is wrong, and the configuration held by the window is unchanged.", "quantifier": "every window state and every text in every field", "why_tests_cant": "all texts", "anchors": ["App/UiDataFusion/datafusionwindow.cpp:on_btnStart_clicked", "App/UiDataFusion/datafusionwindow.cpp:OnConvertResult"]}
{"id": "C147", "title": "Opening a configuration file and starting runs that configuration", "statement": "After opening a configuration file, pressing start without touching the form runs with the values the file has.", "quantifier": "every configuration file, every window state", "why_tests_cant": "all configurations, also those whose numbers need more digits than the form shows", "anchors": ["App/UiDataFusion/datafusionwindow.cpp:InitialUi", "App/UiDataFusion/datafusionwindow.cpp:on_actOpenConfigFile_triggered", "App/UiDataFusion/datafusionwindow.cpp:on_btnStart_clicked"]}
{"id": "C148", "title": "Saving the configuration and opening it again", "statement": "Saving writes the configuration the form shows, and a configuration saved by the window can be opened by the window again.", "quantifier": "every history of the window, every form", "why_tests_cant": "all histories", "anchors": ["App/UiDataFusion/datafusionwindow.cpp:on_actSaveConfigFile_triggered", "App/UiDataFusion/datafusionwindow.cpp:on_actOpenConfigFile_triggered"]}
{"id": "C149", "title": "Angles reported with the nose near vertical", "statement": "With the nose within 2.6 degrees of straight up or down the pitch reported is right, and the heading reported is the one the attitude has when its roll is taken as zero.", "quantifier": "every attitude beyond the threshold", "why_tests_cant": "all attitudes: a continuum", "anchors": ["Src/Convert.cpp:Convert::dcm_to_euler", "Inc/rgioe.h rgioe_get_result"]}
{"id": "C150", "title": "The reported angles are outputs only", "statement": "The three angles a result reports are never read back: two devices that differ only in the angles last reported give the same results, statuses and positions for ever.", "quantifier": "every device in navigation, every sequence of calls, every arithmetic", "why_tests_cant": "all histories", "anchors": ["Src/DataFusion.cpp:DataFusion::TimeUpdate", "Src/InsCore.cpp:Ins", "Inc/rgioe.h"]}
{"id": "C151", "title": "Reading a file up to a time returns the record reached", "statement": "Reading records until a given time stops at the first record at or after it, hands that record to the caller and leaves the reader just behind it.", "quantifier": "every file, every time", "why_tests_cant": "all files", "anchors": ["App/AppCommon/FileIO.cpp:ReadUntil (419-430)"]}
{"id": "C152", "title": "A fix handed over twice, or two fixes with one time stamp, do no harm while aligning", "statement": "While the device aligns itself, handing over the same fix twice leaves the velocity navigation starts with as it was, and two fixes with one time stamp do not spoil it.", "quantifier": "every device being aligned, every fixes, samples and later calls", "why_tests_cant": "all fixes and all states; receivers repeat a fix rarely", "anchors": ["Src/Alignment.cpp:AlignMoving::Update", "Inc/rgioe.h rgioe_gnssupdate"]}
{"id": "C153", "title": "Fixes without a deviation can start navigation", "statement": "A device that aligns itself starts navigating from the fixes it is given also when the receiver reports no standard deviation (0).", "quantifier": "every history of calls after an initialisation with alignment, every arithmetic", "why_tests_cant": "all histories of any length", "anchors": ["Src/Alignment.cpp:AlignMoving::Update (64-67)", "Inc/rgioe.h rgioe_get_status"]}
{"id": "C154", "title": "The text result file can be read back", "statement": "The text written for a list of results has one line for each, in order, and each line reads as thirteen decimal numbers, each equal to its column to half a unit of the last digit printed; times do not run backwards if the results' do not, and results more than a microsecond apart show different times.", "quantifier": "every list of results, every (finite) value in every column", "why_tests_cant": "all numbers, including negative ones, ones that round to zero or carry into the next digit, and ones wider than their field", "anchors": ["App/AppCommon/FileIO.cpp:operator<<(ostream, NavOutput)", "App/AppCommon/FileIO.cpp:PvaWriter::Write"]}
{"id": "C155", "title": "More stated uncertainty never gives less reported uncertainty", "statement": "A filter told smaller uncertainties (at the start, about the motion and about every measurement) never reports larger deviations than one told larger ones, whatever was measured; in particular a fix with smaller deviations never leaves larger reported deviations than the same fix with larger ones.", "quantifier": "every state dimension, every sequence of prediction and measurement steps, every measured value; every filter state for the fix", "why_tests_cant": "all matrices and sequences of any length", "anchors": ["Src/KalmanFilter.hpp:KalmanFilter::Update", "Src/KalmanFilter.hpp:KalmanFilter::Predict", "Src/DataFusion.cpp:DataFusion::MeasureUpdatePos"]}
{"id": "C156", "title": "A measurement leaves alone what is uncorrelated with it", "statement": "A state whose covariance with everything measured is zero is not corrected by the measurement and keeps its deviation; in particular the first fix after the start, with the antenna at the IMU, changes the position only.", "quantifier": "every filter state, every measurement", "why_tests_cant": "all states and measurements", "anchors": ["Src/KalmanFilter.hpp:KalmanFilter::Update", "Src/DataFusion.cpp:DataFusion::MeasureUpdatePos"]}
{"id": "C157", "title": "The alignment is recorded", "statement": "In the recording build, whatever calls are made on however many devices: the ahrs dataset has exactly one row per IMU sample given to a device that is aligning and has found roll and pitch, in call order, under the sample's time and with the roll, pitch and heading of the attitude filter after that sample; the align dataset has one row per fix given to an aligning device that already kept a fix, under the fix's time, with the alignment solution after the fix, the distance between the two fixes and the marks for static, heading found and levelled.", "quantifier": "all interleaved call histories on any number of devices, every arithmetic", "why_tests_cant": "the set of histories is infinite", "anchors": ["Src/AttiAhrs.cpp:AttiAhrs::Update", "Src/Alignment.cpp:AlignMoving::Update"]}
{"id": "C158", "title": "Inconsistent measurements are recognised and not used", "statement": "The filter computes a consistency statistic for every measurement (GetX2), the length of the innovation measured against its expected covariance (zT S^-1 z), so that a caller can tell an outlier from an honest measurement; a measurement that is grossly inconsistent with the state (an outlier) is not applied in full.", "quantifier": "all covariances, measurement matrices, measured values and noise matrices", "why_tests_cant": "the set of states and measurements is a continuum", "anchors": ["Inc/KalmanFilter.hpp:MeasureUpdate", "Inc/KalmanFilter.hpp:GetX2"]}
{"id": "C159", "title": "Either longitude convention may be used", "statement": "A start state may be given with a longitude in -180..180 or 0..360 degrees, and so may every fix (and the conventions may change from call to call): every answer of every call is the same, except that a reported longitude may differ by a multiple of 360 degrees.", "quantifier": "all call histories that start by an initialisation with a given start state, all multiples of 360 degrees added to any of the longitudes, all previous contents of the device", "why_tests_cant": "histories and numbers of turns are unbounded", "anchors": ["Src/rgioe.cpp:rgioe_init,rgioe_gnssupdate", "Src/Convert.cpp:Convert::lla_to_qne,Convert::qne_to_lla", "Src/DataFusion.cpp:DataFusion::_feedBack"]}
{"id": "C160", "title": "The clock does not matter", "statement": "The origin of time can be chosen freely: if the same constant is added to the time stamps of all samples, fixes and start states, every answer of every call is the same, except that the reported time is larger by that constant (before the first sample no time is reported).", "quantifier": "all call histories that start with an initialisation (with none refused later), all constants, all previous contents of the device, in every phase including the alignment", "why_tests_cant": "histories and constants are unbounded", "anchors": ["Src/rgioe.cpp:rgioe_timeupdate,rgioe_gnssupdate,rgioe_get_result", "Src/Alignment.cpp:AlignMoving::Update"]}
{"id": "C161", "title": "Only the ratios of the stated uncertainties matter", "statement": "If a run that starts from a given state is repeated with every stated uncertainty (initial deviations, noise densities, bias deviations, deviations of zero-velocity and non-holonomic updates, deviations of every fix) multiplied by the same positive factor, then every answer of every call is the same, except that exactly the reported deviations are multiplied by that factor.", "quantifier": "all positive factors, all options, all histories of API calls starting with an initialisation from a given state, all contents of the device before", "why_tests_cant": "it compares two runs of any length call by call for a continuum of factors; a test compares two runs", "anchors": ["Src/DataFusion.cpp:Initialize", "Src/DataFusion.cpp:TimeUpdate", "Src/DataFusion.cpp:MeasureUpdatePos", "Src/KalmanFilter.hpp:Update", "Src/rgioe.cpp"]}
{"id": "C162", "title": "The matrix of results holds the results", "statement": "A result file in matrix format has one row of 21 doubles for every result, in order, with its time, position, horizontal displacement, velocity, attitude and their deviations. (Holds for every column except the displacement. Violated there: the base position is never set and latitude and longitude are mixed up, so the east column is the equatorial radius times latitude minus longitude, and decreases when the vehicle goes east.)", "quantifier": "all lists of results, all encodings of a double into eight bytes", "why_tests_cant": "the layout must be right for every number of rows and every value", "anchors": ["App/AppCommon/FileIO.cpp:ConvertNavToDouble", "App/AppCommon/FileIO.h:NavDoubleList", "App/AppCommon/FileIO.cpp:th_write_nav"]}
{"id": "C163", "title": "The report of the IMU parameters shows the parameter file", "statement": "After a parameter file has been loaded, printing the parameters shows the numbers of the file, each in the unit of its label.", "quantifier": "all complete parameter files, all configurations", "why_tests_cant": "twenty-two conversions must be inverse to each other for all values", "anchors": ["App/AppCommon/FileIO.cpp:operator<<(ostream, ImuPara)", "App/AppCommon/Config.cpp:LoadImuPara"]}
{"id": "C164", "title": "The result does not depend on how the IMU is mounted", "statement": "If the same drive is recorded twice with the IMU mounted differently, with the options and the given start state of the same vehicle expressed in the axes of that IMU (lever arms, initial biases, mounting angles, projection), then every return code, the status, the position, the velocity and all reported deviations are the same, the reported biases are the same vectors in the other axes, and the attitude is the same: exactly with output projection, and as the turned attitude without. The stated bias deviations and scale factors must be the same for the three axes and the zero angular rate update off.", "quantifier": "all rotations between the two mountings, all options whose sensor properties are alike for the three axes, all histories of API calls starting with an initialisation from a given state, all contents of the device before", "why_tests_cant": "it compares two runs of any length for a continuum of rotations; rounding hides the symmetry from tests", "anchors": ["Src/InsCore.cpp:ForwardMechanization", "Src/DataFusion.cpp:TransferMatrix", "Src/DataFusion.cpp:TimeUpdate", "Src/DataFusion.cpp:MeasureUpdatePos", "Src/DataFusion.cpp:MeasureNHC", "Src/StaticDetect.cpp:Update", "Src/DataFusion.cpp:Output"]}
{"id": "C165", "title": "The odometer generator writes the odometer file of the navigation file", "statement": "DataGenerator, given a navigation file, ends and writes the odometer line (time, scaled forward speed, the two other components in the vehicle frame) of every tenth record and nothing else, for every readable file, in particular for the result files of this project.", "quantifier": "all navigation files: any number of records, any values, with and without a final new line, missing files, files with a word that is no number", "why_tests_cant": "how the columns fall out of step and into step again depends on the number of records; the loop that never ends cannot be observed by a test", "anchors": ["Tools/DataGenerator.cpp:main", "Tools/DataGenerator.cpp:operator>>"]}
{"id": "C166", "title": "The accuracy check accepts exactly the results that are accurate enough", "statement": "ErrorAnalyse.py exits with 0 exactly when at least 95.44 % of the rows of the result have a plane and a space error within the stated bounds, to the width of one bin of the histogram it uses.", "quantifier": "all result and reference files, all bounds: any number of rows, any distribution of the errors", "why_tests_cant": "whether the shortcut that hides an exception is taken depends on the distribution of all errors together; tests check a few distributions", "anchors": ["Tools/ErrorAnalyse.py", "Tools/ErrorAnalyser.py:Error", "Tools/ErrorAnalyser.py:ErrorAnalyser.analyse"]}
{"id": "C167", "title": "The heading error is an angle, independent of full turns", "statement": "The heading error of a row is between −180 and 180 degrees and is the angle between its heading and the heading of the reference interpolated along the shorter turn, whatever full turns either file adds to its headings.", "quantifier": "all references with increasing times, all rows within them, all headings, all multiples of a full turn", "why_tests_cant": "the unwrapping runs through the whole reference, so that the result depends on the whole history of headings", "anchors": ["Tools/ErrorAnalyser.py:ErrorAnalyser.analyse"]}
{"id": "C168", "title": "The position error is the distance to the reference", "statement": "The errors east, north and up of a row are its distances from the reference interpolated to the same instant; they are zero exactly when the row is where the reference is, however the longitudes are written.", "quantifier": "all references with increasing times, all rows within them, all positions away from the poles", "why_tests_cant": "it is a statement about a continuum of positions and instants", "anchors": ["Tools/ErrorAnalyser.py:ErrorAnalyser.analyse", "Tools/Earth.py:dE", "Tools/Earth.py:dN"]}
{"id": "C169", "title": "The attitude filter listens to the direction of the force only, and not at all in free fall", "statement": "AttiAhrs takes from an accelerometer or magnetometer reading its direction only; a specific force of at most 0.5 m/s² (a reading of at most 0.1 in the magnetometer form) is ignored, every stronger one that is not aligned with the attitude held changes the attitude; in free fall the attitude follows the gyroscope alone.", "quantifier": "all histories of updates and settings of the filter, all readings, all sampling intervals", "why_tests_cant": "it is a statement about a continuum of readings on both sides of a threshold and about histories of any length", "anchors": ["Src/AttiAhrs.cpp:AttiAhrs::Update", "Src/AttiAhrs.cpp:AttiAhrs::SetAtti"]}
{"id": "C170", "title": "The magnetometer form keeps the right heading", "statement": "A device held at the attitude the filter has, measuring a field that points north according to that attitude, is left at that attitude by Update(gyro, acc, mag).", "quantifier": "all strengths and inclinations of the field, all sampling intervals up to a second", "why_tests_cant": "it is a statement about a continuum of fields", "anchors": ["Src/AttiAhrs.cpp:AttiAhrs::Update", "Src/Convert.cpp:euler_to_dcm"]}
{"id": "C171", "title": "The plotting scripts show what the result file holds", "statement": "For every result file the library's programs write, show_sensors.py marks, for each sensor, the epochs whose sensor flag is set, and show_nav.py's bias plot draws the biases.", "quantifier": "all lists of results, all flags", "why_tests_cant": "it is about files of every length, and the scripts are run by hand on real files only", "anchors": ["Tools/show_sensors.py:show_sensors", "Tools/show_nav.py:showBias", "App/AppCommon/FileIO.cpp:operator<<"]}
{"id": "C172", "title": "The Python mechanization computes the library's velocity", "statement": "From the same epoch and the same pair of readings, Tools/InsCore.py's mechanization_n and the library's mechanization give the same velocity and height but for the point at which each takes gravity: the vertical velocities differ by (gravity at the start − gravity half an interval ahead)·dt, the heights by half an interval times that, the horizontal velocities not at all.", "quantifier": "all epochs, all readings, all intervals of at least 0.1 ms, all biases and scale factors", "why_tests_cant": "it compares two programs on a continuum of states", "anchors": ["Tools/InsCore.py:mechanization_n", "Tools/InsCore.py:compensate_imu", "Src/InsCore.cpp:Ins::ForwardMechanization"]}
{"id": "C173", "title": "The Python mechanization keeps a rotation for attitude", "statement": "After any run of readings the attitude matrix mechanization_n keeps and applies to the specific force is a rotation, and its position quaternion has unit length.", "quantifier": "all runs of readings of every length", "why_tests_cant": "it is about runs of every length", "anchors": ["Tools/InsCore.py:mechanization_n", "Tools/InsCore.py:rv_to_quaternion", "Tools/InsCore.py:quaternion_to_dcm"]}
{"id": "C174", "title": "Earth-fixed coordinates convert back", "statement": "For every latitude between the poles, longitude and height from −60 km to 10¹³ m, Earth.py's ecef_to_lla applied to what lla_to_ecef gives returns the longitude, the height to 10⁻⁸ m and the latitude to 0.37 mm per kilometre of height, within its eleven rounds, and exactly the point for height 0.", "quantifier": "all latitudes, longitudes and heights of those ranges", "why_tests_cant": "it is about the convergence of an iteration over a continuum of points", "anchors": ["Tools/Earth.py:ecef_to_lla", "Tools/Earth.py:lla_to_ecef", "Tools/InsCore.py:ecef_to_lla"]}
{"id": "C175", "title": "The error analysis moves the reference by the lever arm", "statement": "With an offset given, the reference position the error analysis compares with is that of the point at the offset (in the frame of the device, turned by the reference's attitude) from the reference, in degrees, to the accuracy of C174.", "quantifier": "all reference positions, attitudes and offsets", "why_tests_cant": "it is about a continuum of positions, attitudes and offsets", "anchors": ["Tools/ErrorAnalyser.py:compensate", "Tools/InsCore.py:euler_to_dcm", "Tools/InsCore.py:lla_to_cne"]}
{"id": "C176", "title": "Places are read equally well at every longitude", "statement": "The position quaternion the filter keeps stands for a place by the vertical it defines. The latitude and longitude the filter reads off it are those of that place, equally well at every longitude: a small turn of the navigation axes against north changes them little. (Violated near the antimeridian: the latitude is a quotient whose divisor vanishes there. Proved: the exact error bound in terms of the turn and the longitude; that every latitude can be read for a place of given latitude with arbitrarily small turns; that a correction of any size moving a filter on the equator north and east can make it hold any latitude, depending on its longitude.)", "quantifier": "all places off the poles, all unit quaternions that stand for them, all filters on the equator and all corrections up to 1000 km", "why_tests_cant": "a continuum of quaternions; the failing ones lie in a set a test will not hit by chance", "anchors": ["Src/Convert.cpp:Convert::qne_to_lla", "Src/DataFusion.cpp:DataFusion::_feedBack"]}
{"id": "C177", "title": "The installation angle tool gives the least squares solution", "statement": "The small rotation the tool prints after any number of records is the one that best makes the vehicle move straight ahead (least squares of the sideways and vertical speeds with deviation 10 m/s, and of the angles with deviation sqrt 0.4). If one rotation explains all records exactly, the velocities turned by the printed one miss the straight direction by at most 250 times the square of that rotation in total.", "quantifier": "all lists of records (exact arithmetic)", "why_tests_cant": "number and contents of the records are unbounded", "anchors": ["Tools/ObtainInstallAngle.cpp:main"]}
{"id": "C178", "title": "The trajectory viewer draws the trajectory", "statement": "The viewer draws one pose per record of the file after the first, relative to the first, connects consecutive ones and draws at each the axes of the vehicle. (Violated: for every file with something to draw it reads past the end of its list; the last pose appears twice; roll and heading are exchanged, so that the heading of a level vehicle is not shown.)", "quantifier": "all files of complete records; all records", "why_tests_cant": "all files", "anchors": ["Tools/showTraj.cpp:main,DrawTrajectory,Euler2Quaternion"]}
{"id": "C179", "title": "The mechanization alone can be restarted from an epoch and its sample", "statement": "Starting the stand-alone mechanization (class Ins) from the epoch a run has reached and the sample taken there, with InitializePva(nav, imu), and going on with the following samples gives what the unbroken run gives, at every data rate and with every estimated sensor error.", "quantifier": "all states, all rates, all sensor errors, all lists of samples", "why_tests_cant": "it compares two runs over every continuation, rate and error state", "anchors": ["Src/InsCore.cpp:Ins::InitializePva(const NavEpoch&, const RgioeImuData&)", "Src/InsCore.cpp:Ins::ForwardMechanization"]}
{"id": "C180", "title": "The stand-alone mechanization reports its epoch", "statement": "Ins::Output reports every member of the epoch it has (time, week, flags, position, velocity, attitude, biases, scale factors, odometer scale, deviations), in the units of the filter's result, and the same as the filter reports for this epoch.", "quantifier": "all epochs", "why_tests_cant": "it is about every epoch; the function keeps its result in a static object, so what one call leaves could be seen by the next", "anchors": ["Src/InsCore.cpp:Ins::Output", "Src/DataFusion.cpp:DataFusion::Output"]}
{"id": "C181", "title": "A windowed run processes the configured span", "statement": "A run of the window program with given start values processes the samples after the first one at or after the start time and none after the stop time; a zero or negative start or stop time means the beginning or the end of the data.", "quantifier": "all IMU, GNSS and odometer files, all start and stop times, all settings", "why_tests_cant": "the span depends on every stamp in the file and on the combination of start and stop time", "anchors": ["App/UiDataFusion/DataFusionThread.cpp: DataFusionThread::run", "App/RtSimulation/src/navplay/include/navplay/ReaderBase.h: ReadUntil"]}
{"id": "C182", "title": "The progress bar shows a percentage", "statement": "While a run goes on, the number sent to the progress bar is between 0 and 100 and is the elapsed part of the span.", "quantifier": "all files with stamps not before the first sample, all start and stop times", "why_tests_cant": "depends on every stamp and on the times configured", "anchors": ["App/UiDataFusion/DataFusionThread.cpp: DataFusionThread::run", "App/RtSimulation/src/navplay/include/navplay/ReaderBase.h: ReadUntil"]}
{"id": "C183", "title": "Every fix in the span is used once, in order", "statement": "Each fix of the GNSS file that lies within the processed span (and not in a simulated outage) is handed to the filter exactly once, in the order of the file.", "quantifier": "all files, rates and settings", "why_tests_cant": "the reader position after any number of records depends on all earlier stamps of both files", "anchors": ["App/UiDataFusion/DataFusionThread.cpp: DataFusionThread::run", "App/RtSimulation/src/navplay/include/navplay/ReaderBase.h: ReadUntil"]}
{"id": "C184", "title": "The window is told about a failed run", "statement": "Whenever a run ends without a result, a message saying so is sent to the window.", "quantifier": "all files (missing ones included), settings and alignment procedures", "why_tests_cant": "every combination of missing, short and complete files and of settings is a separate path", "anchors": ["App/UiDataFusion/DataFusionThread.cpp: DataFusionThread::run", "App/RtSimulation/src/navplay/include/navplay/ReaderBase.h: ReadUntil"]}
{"id": "C185", "title": "A run uses no undefined value", "statement": "No run reads a variable that was never set or follows a null pointer.", "quantifier": "all files (missing ones included), settings and alignment procedures", "why_tests_cant": "reading an unset variable shows in a test only by chance", "anchors": ["App/UiDataFusion/DataFusionThread.cpp: DataFusionThread::run", "App/RtSimulation/src/navplay/include/navplay/ReaderBase.h: ReadUntil"]}
{"id": "C186", "title": "The viewer shows one figure of the data held", "statement": "After every history of opened and dropped files and menu choices the viewer shows at most one figure, and the curves and time range of that figure are those of the data held now, under the title of the chosen menu item.", "quantifier": "all files and all histories of user actions", "why_tests_cant": "figures left over from earlier actions show only after particular orders of actions", "anchors": ["App/UiDataFusion/navplot.cpp: NavPlot", "App/UiDataFusion/navplot.h: NavPlot", "App/UiDataFusion/navplot_main.cpp"]}
{"id": "C187", "title": "Opening a text result shows its records", "statement": "Opening a text result file in the viewer shows exactly the records of that file.", "quantifier": "all text files, all states of the window", "why_tests_cant": "depends on the end of the file and on every file opened before", "anchors": ["App/UiDataFusion/navplot.cpp: NavPlot", "App/UiDataFusion/navplot.h: NavPlot", "App/UiDataFusion/navplot_main.cpp"]}
{"id": "C188", "title": "Bias and scale plots show biases and scales", "statement": "The plots of sensor biases and scale factors of an opened text result show the values of these quantities in the file.", "quantifier": "all text result files", "why_tests_cant": "which column lands in which quantity depends on the number of columns of every line", "anchors": ["App/UiDataFusion/navplot.cpp: NavPlot", "App/UiDataFusion/navplot.h: NavPlot", "App/UiDataFusion/navplot_main.cpp"]}
{"id": "C189", "title": "Opening a binary result shows its results", "statement": "Opening a binary result file in the viewer shows exactly its results.", "quantifier": "all binary files, the empty one included", "why_tests_cant": "the loop end depends on the length of the file", "anchors": ["App/UiDataFusion/navplot.cpp: NavPlot", "App/UiDataFusion/navplot.h: NavPlot", "App/UiDataFusion/navplot_main.cpp"]}
{"id": "C190", "title": "Unreadable and dropped files", "statement": "A file that cannot be shown leaves the window unchanged; a file dropped on the window is shown.", "quantifier": "all paths, all histories of user actions", "why_tests_cant": "every kind of path and every order of actions is a separate case", "anchors": ["App/UiDataFusion/navplot.cpp: NavPlot", "App/UiDataFusion/navplot.h: NavPlot", "App/UiDataFusion/navplot_main.cpp"]}
{"id": "C191", "title": "The time fix keeps every sample", "statement": "The IMU fixing tool writes every sample of the IMU file with its time reduced by one second (in the rotated file also turned by the 75 degree tilt of the mounting), and every odometer record with its time reduced likewise.", "quantifier": "all IMU and odometer files", "why_tests_cant": "the first and the last record are treated by different code", "anchors": ["Tools/ImuFix.cpp: main"]}
{"id": "C192", "title": "The static detector tool reports each sample", "statement": "The static detection tool writes, for every sample of the file, one line with its time, the deviation found by the detector and whether the device is taken as static.", "quantifier": "all IMU files", "why_tests_cant": "the deviation depends on all earlier samples", "anchors": ["Tools/ZeroDetector.cpp: main"]}
{"id": "C193", "title": "The binary converter writes each result", "statement": "The converter of binary results to rows of numbers writes exactly one row per result of the file.", "quantifier": "all result files", "why_tests_cant": "the loop end depends on the whole file", "anchors": ["Tools/SaveNavToBin.cpp: main"]}
{"id": "C194", "title": "The attitude is the exact sum of all turns", "statement": "Between corrections, however many samples are processed and however fast the device turns, the attitude is the exact composition of the turns of the device (measured increments less bias and scale factor, coning corrected) and of the navigation frame (earth and transport rate), up to an error that is at most the ninth power of the turn per sample over seven million: 1.5e-22 per sample for turns up to a fiftieth of a radian.", "quantifier": "every start attitude, every sequence of samples of any length and values (exact arithmetic)", "why_tests_cant": "the error of one sample is far below what a test can see, and it adds up over unbounded histories", "anchors": ["Src/InsCore.cpp: Ins::_atti_update, Ins::ForwardMechanization", "Src/Convert.cpp: Convert::rv_to_quaternion, Convert::gyro_to_rv"]}
{"id": "C195", "title": "Rounding can only make the attitude drift in proportion to the number of samples", "statement": "However every arithmetic operation is rounded (to within u relative plus u absolute, which covers IEEE single and double precision), after any number of inertial samples each entry of the attitude matrix kept by the mechanization is within twice the truncation errors of its turns plus about 10800 u per sample (and 170 u once) of the exact composition of all the turns the program computed, applied to the attitude it started from: rounding never accumulates faster than linearly and never makes the attitude lose its orthonormality or its sense. In double precision two hours at 200 Hz with turns up to a fiftieth of a radian per sample cost less than two microradians.", "quantifier": "all roundings with the stated accuracy, all start states with a quaternion of unit length up to rounding, all lists of samples whose computed turns are at most 3 rad per interval", "why_tests_cant": "tests replay a few recordings on one platform; how rounding errors accumulate over arbitrary histories is a statement about all of them", "anchors": ["Src/InsCore.cpp: _atti_update, ForwardMechanization", "Src/Convert.cpp: rv_to_quaternion, quaternion_to_dcm, gyro_to_rv"]}
{"id": "C196", "title": "The attitude relative to the earth comes from the gyroscopes alone", "statement": "Between corrections, after any number of inertial samples, the attitude of the device relative to the earth (position rotation times attitude rotation) is the exact composition of the gyroscope turns (less bias and scale factor, coning corrected) with the earth turning below, up to the ninth-power truncation errors of the computed turns and the sum of the differences between the turn of the local frame that moved the position and the one taken out of the attitude. Accelerometer readings, gravity, velocity and place enter in no other way: two runs with the same start and the same gyroscope readings end with the same attitude over the earth up to these amounts.", "quantifier": "all start states with unit quaternions, all lists of samples, all values of the interval, exact arithmetic", "why_tests_cant": "a test sees one trajectory; that velocity and position errors never leak into the attitude over the earth is a statement about all of them", "anchors": ["Src/InsCore.cpp: _position_update, _atti_update, _extrapolate, ForwardMechanization", "Src/Convert.cpp: rv_to_quaternion"]}
{"id": "C197", "title": "Between corrections the position cannot jump", "statement": "While only IMU samples arrive, the local frame at the position the mechanization keeps (the vertical there in particular) moves over the earth by at most the sum over the samples of sampling interval times transport rate of the mean velocity, plus the error of the earth rate used and the truncation errors of the computed turns; at horizontal speeds up to V and latitudes with cosine at least k that is V/(6335 km k) radians a second.", "quantifier": "every start state with a unit position quaternion, every list of samples, every vector carried along", "why_tests_cant": "the bound must hold over runs of any length and for every velocity history; a test sees one trajectory", "anchors": ["Src/InsCore.cpp:_position_update", "Src/InsCore.cpp:_extrapolate", "Src/Earth.cpp:omega_en_n"]}
{"id": "C198", "title": "With perfect gyroscopes the attitude follows the truth", "statement": "A body turns with an angular rate of at most Omega that changes no faster than L, and its gyroscopes (after the corrections for bias and scale factor) deliver the exact integrals of the rate over the sampling intervals. Started from the true attitude relative to the earth, the product of position and attitude quaternion stays, after any number of samples without a correction, within N dt^3 (Omega^3/2 + 3 L Omega/10) of the true attitude (plus the truncation and frame terms of C196), as long as Omega dt <= 1: over a given time the error falls with the square of the sampling interval.", "quantifier": "every such motion, every start state with unit quaternions, every sampling interval, every number of samples, every vector carried along", "why_tests_cant": "a test compares one simulated motion at one rate; the order of convergence is a statement about all motions and all rates", "anchors": ["Src/InsCore.cpp:_atti_update", "Src/InsCore.cpp:ForwardMechanization", "Src/Convert.cpp:gyro_to_rv"]}
{"id": "C199", "title": "The velocity gained in a sample is the integral of the force", "statement": "With gyroscopes and accelerometers that deliver the integrals of angular rate and specific force over the sampling interval (after the corrections for bias and scale factor), for this sample and the one before (or with no sample before), the change of velocity over one sample, less gravity and the Coriolis acceleration at the extrapolated place, equals the exact integral of the specific force - the body turning under it by its true motion, the navigation frame turning evenly below - up to a bound of the third power of the interval.", "quantifier": "every motion with bounded rate and force that change at bounded speed, every state with a rotation for attitude, every interval, every sample", "why_tests_cant": "sculling errors show only for particular combinations of turning and shaking; a test tries a few", "anchors": ["Src/InsCore.cpp:_velocity_update", "Src/InsCore.cpp:ForwardMechanization", "Src/InsCore.cpp:CompensateIMU"]}
{"id": "C200", "title": "Between corrections the velocity moves by gravity, Coriolis and what is measured", "statement": "Over any run of IMU samples without a correction the velocity changes by the sum of interval times (gravity less Coriolis acceleration) at the extrapolated places, and by no more than the sum of the corrected accelerometer increments, each times one plus half the turns of frame and body in its interval and a twelfth of the products with the increments before; accelerometers that read nothing leave exactly gravity and Coriolis.", "quantifier": "every start state with a unit attitude quaternion, every list of samples", "why_tests_cant": "must hold for runs of any length and any readings", "anchors": ["Src/InsCore.cpp:_velocity_update", "Src/InsCore.cpp:_extrapolate", "Src/Earth.cpp:gravity"]}
{"id": "C201", "title": "The whole mechanization converges to the true flight", "statement": "Fix limits of latitude (below 90 degrees), longitude (below 180 degrees), height, speed, angular rate and specific force, and a flight time T. There are a constant K and an interval bound such that for every true flight within the limits that obeys the navigation equations (C81) on the turning ellipsoid with normal gravity, and every run of the mechanization started from the true state and fed the exact integrals of angular rate and specific force at any fixed smaller interval dt, after any number of samples up to time T the latitude, longitude, height, velocity and attitude the mechanization gives differ from the true ones by at most K dt. K does not depend on the flight, on dt or on the number of samples.", "quantifier": "all flights within the limits, all sampling intervals below the bound, all numbers of samples up to T", "why_tests_cant": "a test compares one simulated trajectory at one rate; here every trajectory within the limits and every rate is covered, with one constant", "anchors": ["Src/InsCore.cpp:ForwardMechanization", "Src/InsCore.cpp:_extrapolate", "Src/InsCore.cpp:_velocity_update", "Src/InsCore.cpp:_position_update", "Src/InsCore.cpp:_atti_update", "Src/Earth.cpp", "Src/Convert.cpp"]}
{"id": "C202", "title": "Errors of the start and of the sensors grow in proportion", "statement": "Fix limits of latitude (below 90 degrees), longitude (below 180 degrees), height, speed, angular rate and specific force, and a flight time T. There are a constant K and a bound r such that for every true flight within the limits, every start of the mechanization off by at most e in latitude, longitude, height, velocity and attitude, every sampling interval dt and every sequence of readings whose mean angular rate and specific force over each interval are off by at most d (an uncompensated bias, noise, scale factor), with e + d + dt at most r: after any number of samples up to time T latitude, longitude, height, velocity and attitude are off by at most K (e + d + dt). K does not depend on the flight, on the errors or on the number of samples.", "quantifier": "all flights within the limits, all starts and readings with errors up to the bound, all sampling intervals, all numbers of samples up to T", "why_tests_cant": "a test follows one trajectory with one error; here every error of bounded size, also one that changes from sample to sample, is covered", "anchors": ["Src/InsCore.cpp:ForwardMechanization", "Src/InsCore.cpp:_extrapolate", "Src/InsCore.cpp:_velocity_update", "Src/InsCore.cpp:_position_update", "Src/InsCore.cpp:_atti_update", "Src/InsCore.cpp:CompensateIMU", "Src/Earth.cpp", "Src/Convert.cpp"]}
{"id": "C203", "title": "The computed flight follows the true one, rounding included", "statement": "In every arithmetic whose operations and library functions are accurate to a unit u, on every flight within given limits, the position, velocity and attitude the mechanization computes stay within K times (error at the start + error of the sensors per second + sampling interval + u / sampling interval) of the truth, for the whole flight, whenever that sum is below some r > 0; K and r depend only on the limits (which keep away from the poles and the 180 degree meridian), the duration and the range of readings and biases.", "quantifier": "every true flight within the limits, every arithmetic of accuracy u (IEEE double, single, fixed point), every start and every list of readings near the truth, any number of samples", "why_tests_cant": "rounding is committed tens of thousands of times per second of flight in data-dependent ways; a test sees one arithmetic and one flight, and cannot separate rounding from method error", "anchors": ["Src/InsCore.cpp: Ins::ForwardMechanization, _extrapolate, _velocity_update, _position_update, _atti_update", "Src/Convert.cpp: rv_to_quaternion, quaternion_to_dcm, lla_to_qne, qne_to_lla", "Src/Earth.cpp"]}
{"id": "C204", "title": "A load shows the file loaded", "statement": "After DataLoader::LoadFile the loader holds the records of that file and of no other, whatever it loaded before, and its error code tells when there was nothing to load. (Violated: records of recordings with the same table accumulate over all files loaded with one loader, without any error; a file that cannot be opened leaves the old data and the code OK, a file without a header leaves the old data.)", "quantifier": "every table, every list of recordings loaded one after the other with one loader, every state of the loader", "why_tests_cant": "the result of a load depends on the whole history of the loader; tests use a new loader for each file", "anchors": ["Src/Recorder/DataLoader.cpp: DataLoader::LoadFile, _loadHeader, AddData"]}
{"id": "C205", "title": "On inertial sensors alone the reported results follow the true flight", "statement": "An instance of the C interface started from given values, with zero-velocity updates and the motion constraint off and no usable fix, reports, whatever other calls are made, exactly the result of the mechanization alone over its samples; and in exact arithmetic place, velocity and attitude reported after any number of samples stay within a constant times (error of the given values + sensor error + sampling interval) of every true flight within given limits, for the whole flight.", "quantifier": "all arithmetics (first part); all flights within given limits, durations, option sets, given values, sensor errors, call histories (second part)", "why_tests_cant": "ranges over all continuous flights and all call histories; the bound must hold uniformly as the sampling interval shrinks", "anchors": ["Src/rgioe.cpp:rgioe_timeupdate", "Src/rgioe.cpp:rgioe_get_result", "Src/DataFusion.cpp:TimeUpdate", "Src/DataFusion.cpp:Output", "Src/InsCore.cpp:ForwardMechanization", "Src/InsCore.cpp:makeNavEpoch"]}
{"id": "C206", "title": "The reported results follow the true flight also when computed with rounding", "statement": "Under the conditions of C205, in every arithmetic whose operations and library functions are accurate to u, an instance of the C interface started from written-down values reports latitude, longitude, height and velocity within a constant times (error of the given values + sensor error + sampling interval + u per sampling interval) of the truth after any number of samples of the flight. If the library's two-argument arctangent is accurate as an angle (either representation of the half turn), the reported roll, pitch and yaw describe the true attitude to the same accuracy, wherever the true pitch is not within about 8 degrees of the vertical.", "quantifier": "all flights within given limits, durations, roundings accurate to u, option sets, given values, sensor errors, call histories", "why_tests_cant": "ranges over all continuous flights, all roundings and all call histories; a test uses one arithmetic", "anchors": ["Src/rgioe.cpp:rgioe_timeupdate", "Src/rgioe.cpp:rgioe_get_result", "Src/DataFusion.cpp:TimeUpdate", "Src/DataFusion.cpp:Output", "Src/InsCore.cpp:makeNavEpoch", "Src/InsCore.cpp:ForwardMechanization", "Src/Convert.cpp"]}
{"id": "C207", "title": "From the sensor file to the result file, the lines follow the flight", "statement": "Run on a text file of inertial samples alone, from configured start values and with every aid switched off, the post-processing program ends and writes exactly one line per sample after the first one not earlier than the configured start time. If the start values are within e of a true flight, the samples give the true rates and forces to within delta, and they are dt apart, every line is within a constant times e + delta + dt of the true place, velocity and (away from the vertical) attitude at the time of its sample; with rounding accurate to u, place, velocity and attitude are within a constant times e + delta + dt + u/dt. The constant depends only on the limits of the flight and its duration.", "quantifier": "every true flight within given limits, every configuration for inertial navigation from given values, every text file of samples, every line, every content of uninitialised memory, every accuracy of the arithmetic", "why_tests_cant": "A test replays one recorded file against one reference; the constant and the number of lines must hold for every file, every flight and every rate.", "anchors": ["App/PostDataFusion/PostDataFusion.cpp:main", "App/AppCommon/FileIO.cpp:ReadNext", "App/PostDataFusion/DataManager.cpp:GetNextData", "Src/DataFusion.cpp:TimeUpdate", "Src/InsCore.cpp:ForwardMechanization"]}
{"id": "C208", "title": "A gap in the GNSS reception is bridged by the inertial sensors", "statement": "Of an instance that navigates without zero-velocity updates and without the non-holonomic constraint, after any history of calls and any alignment: once the last correction is used up (1000 samples after the last usable fix, or one sample if the last two usable fixes were at most 1000 samples apart), every report during a stretch without usable fix is the one of the inertial mechanization alone, run from one and the same state over the samples given since, whatever else is called. In exact arithmetic, if at the beginning of the gap the state held is within e of a true flight and the readings, freed of the sensor errors reported at that moment, are within delta of the true rates, then for gaps of any duration up to T every report is within a constant times (e + delta + sampling interval) of the truth, the constant depending on limits of the flight, T and a bound on the last increments only.", "quantifier": "all histories, alignment modes, options without aids, contents and lengths of gap up to any T, true flights within limits, start and sensor errors below a threshold; the equality with the mechanization for every arithmetic", "why_tests_cant": "the bound is over all flights, histories and durations, and the constant is uniform; a test sees single flights", "anchors": ["Src/DataFusion.cpp:TimeUpdate", "Src/DataFusion.cpp:MeasureUpdatePos", "Src/InsCore.cpp:ForwardMechanization", "Src/rgioe.cpp:rgioe_timeupdate", "Src/rgioe.cpp:rgioe_get_result"]}
{"id": "C209", "title": "A fix moves the solution no further than it makes it more certain", "statement": "While the filter holds a valid covariance, the correction a usable GNSS fix gives to any component (position, velocity, attitude, biases) is bounded: its square, in units of the smallest scaled variance of the fix, is at most the drop of that component's variance caused by the fix, times the square of the distance between the fix and the antenna of the current solution. In reported terms: a fix that hardly reduces the reported standard deviation hardly moves the solution, and no fix moves a component by more than its reported standard deviation times the antenna-to-fix distance over the fix's deviation.", "quantifier": "every filter state with a valid covariance, every usable fix with positive deviations and scale, every component (and, for the Kalman update itself, every dimension, measurement matrix and direction)", "why_tests_cant": "It relates the gain, the covariance drop and the innovation for all covariances and fixes; a test can only try particular matrices.", "anchors": ["Src/KalmanFilter.hpp:Update", "Src/DataFusion.cpp:MeasureUpdatePos", "Src/DataFusion.cpp:_posZ"]}
{"id": "C210", "title": "The complete GNSS/INS filter follows the flight", "statement": "Started from given values near the truth, with the zero-velocity and non-holonomic aids off, an instance that is given IMU samples, usable and unusable fixes and queries in any order reports, at the time of the last sample, a latitude, longitude, height, velocity and (away from the vertical pitch) attitude within a constant times (start error + sensor error + fix error + sampling interval) of the true flight. The constant depends on the flight limits, the duration, the number of usable fixes, the lever arm and the ratio of the filter's standard deviations to those of the fixes, not on the rate or the number of samples. Corrections that are spread over many samples are included.", "quantifier": "every true flight within the limits, every option set without aids, every start within e, every call history with at most N usable fixes, each met with a valid covariance of bounded variances", "why_tests_cant": "an error bound over all flights, all interleavings of samples and fixes and all sampling rates is an asymptotic statement; a test sees one recorded drive", "anchors": ["Src/DataFusion.cpp:TimeUpdate", "Src/DataFusion.cpp:MeasureUpdatePos", "Src/DataFusion.cpp:_feedBack", "Src/InsCore.cpp:ForwardMechanization", "Src/rgioe.cpp:rgioe_timeupdate", "Src/rgioe.cpp:rgioe_gnssupdate"]}
{"id": "C211", "title": "With a file of fixes, too, the result file follows the true flight", "statement": "Post-processing a text file of IMU samples and a seven-column file of fixes from configured start values ends and writes one line per record used (samples and fixes merged by time, those after the first not earlier than the start time). From the first sample on, the line for a record is the result the C interface reports after exactly the records so far; and if the readings follow a true flight to within the sensor error and every fix that is used (not hidden by the outage) is where the antenna is to within the fix error, every such line has latitude, longitude, height, velocity and (away from the vertical pitch) attitude within a constant times (start error + sensor error + fix error + sampling interval) of the truth at the time of the last sample.", "quantifier": "every true flight within the limits, every configuration for a start from given values without aids, all text files of samples, all seven-column files of at most N fixes, every outage setting; each fix met with a valid covariance of bounded variances", "why_tests_cant": "the claim is about every pair of files and every flight; a regression test compares one recorded drive with one stored result", "anchors": ["App/PostDataFusion/PostDataFusion.cpp:main", "App/PostDataFusion/DataManager.cpp:GetNextData", "App/AppCommon/FileIO.cpp:ReadNext", "Src/DataFusion.cpp:MeasureUpdatePos", "Src/DataFusion.cpp:_feedBack", "Src/InsCore.cpp:ForwardMechanization", "Src/rgioe.cpp:rgioe_get_result"]}
{"id": "C212", "title": "The complete GNSS/INS filter follows the flight, whatever its covariance becomes", "statement": "Started from given values near the truth, with the zero-velocity and non-holonomic aids off, an instance that is given IMU samples, usable and unusable fixes and queries in any order reports, at the time of the last sample, a latitude, longitude, height, velocity and (away from the vertical pitch) attitude within a constant times (start error + sensor error + fix error + sampling interval) of the true flight, provided that sum is below a threshold. Constant and threshold depend only on the flight limits, the duration, the number of usable fixes, the lever arm, bounds on the deviations, random walks and correlation times of the configuration and a lower bound on the scaled deviations of the fixes. Nothing is assumed about the filter's covariance while it runs, with process noise of any size: the program's prediction can make the covariance indefinite (C26), but the defect stays proportional to the square of the sampling interval.", "quantifier": "every true flight within the limits, every option set without aids within the bounds (any process noise), every start within e, every call history with at most N usable fixes", "why_tests_cant": "the effect of an indefinite covariance over all flights, histories and rates is an asymptotic statement; a test sees one recorded drive with one parameter set", "anchors": ["Src/DataFusion.cpp:TimeUpdate", "Src/DataFusion.cpp:TransferMatrix", "Src/DataFusion.cpp:MeasureUpdatePos", "Src/DataFusion.cpp:_feedBack", "Src/KalmanFilter.hpp:Predict", "Src/KalmanFilter.hpp:Update", "Src/InsCore.cpp:ForwardMechanization", "Src/rgioe.cpp:rgioe_timeupdate", "Src/rgioe.cpp:rgioe_gnssupdate"]}
{"id": "C213", "title": "The result file of a run with fixes follows the flight, whatever the covariance becomes", "statement": "Post-processing a text file of IMU samples and a seven-column file of fixes from configured start values ends, writes one line per record used, and, from the first sample on, every line has latitude, longitude, height, velocity and (away from the vertical pitch) attitude within a constant times (start error + sensor error + fix error + sampling interval) of the truth at the time of the last sample, when that sum is below a threshold, the readings follow a true flight to within the sensor error and every fix not hidden by the outage is where the antenna is to within the fix error. Nothing is assumed about the filter's covariance.", "quantifier": "every true flight within the limits, every configuration for a start from given values without aids within the bounds (any process noise), all text files of samples, all seven-column files of at most N fixes, every outage setting", "why_tests_cant": "the claim is about every pair of files, every flight and every parameter set; a regression test compares one recorded drive with one stored result", "anchors": ["App/PostDataFusion/PostDataFusion.cpp:main", "App/PostDataFusion/DataManager.cpp:GetNextData", "App/AppCommon/FileIO.cpp:ReadNext", "Src/DataFusion.cpp:MeasureUpdatePos", "Src/DataFusion.cpp:TransferMatrix", "Src/KalmanFilter.hpp:Predict", "Src/InsCore.cpp:ForwardMechanization"]}
{"id": "C214", "title": "The reported deviations stay bounded", "statement": "Under the hypotheses of C212 the standard deviations of place, velocity and attitude that the C interface reports are at most a constant which depends on the flight limits, the duration, the number of usable fixes and the bounds on the configuration, whatever the sampling rate and the order of the calls; the covariance behind them is symmetric, at most that constant in every direction, and nowhere further below zero than the constant times the square of the sampling interval, although the program's prediction can make it indefinite (C26).", "quantifier": "every true flight within the limits, every option set without aids within the bounds (any process noise), every start within e, every call history with at most N usable fixes", "why_tests_cant": "a bound over all flights, histories and rates; a test sees one recorded drive", "anchors": ["Src/DataFusion.cpp:TimeUpdate", "Src/DataFusion.cpp:TransferMatrix", "Src/DataFusion.cpp:MeasureUpdatePos", "Src/DataFusion.cpp:Output", "Src/KalmanFilter.hpp:Predict", "Src/KalmanFilter.hpp:Update", "Src/rgioe.cpp:rgioe_get_result"]}
{"id": "C215", "title": "A fix never adds uncertainty and never inverts a singular matrix", "statement": "Under the hypotheses of C212, below a threshold, no usable fix makes any standard deviation of place, velocity or attitude that the C interface reports larger than it was reported before the fix; and the matrix the fix inverts is positive definite, at least half the square of the smallest scaled deviation of the fixes in every direction. Nothing is assumed about the covariance, which the program's prediction can make indefinite (C26).", "quantifier": "every true flight within the limits, every option set without aids within the bounds (any process noise), every start within e, every call history with at most N usable fixes, every usable fix after the first sample", "why_tests_cant": "the claim compares the answers before and after every fix of every history on every flight", "anchors": ["Src/DataFusion.cpp:MeasureUpdatePos", "Src/DataFusion.cpp:TimeUpdate", "Src/DataFusion.cpp:TransferMatrix", "Src/DataFusion.cpp:Output", "Src/KalmanFilter.hpp:Update", "Src/KalmanFilter.hpp:Predict", "Src/rgioe.cpp:rgioe_gnssupdate", "Src/rgioe.cpp:rgioe_get_result"]}
{"id": "C216", "title": "The deviations in a result file stay bounded and no fix raises them", "statement": "Under the hypotheses of C213 (a post-processing run on a file of samples and a file of fixes), from the first sample on every standard deviation of place, velocity and attitude in the results the run writes is at most a constant that depends on the flight limits, the duration, the number of fixes and the bounds on the configuration; and below a threshold the result written for a fix that is not hidden by the outage has no deviation larger than the result written just before it.", "quantifier": "every true flight within the limits, every configuration for a start from given values without aids within the bounds (any process noise), all text files of samples, all seven-column files of at most N fixes, every outage setting, every line", "why_tests_cant": "the claim compares consecutive lines of the result of every pair of files", "anchors": ["App/PostDataFusion/PostDataFusion.cpp:main", "App/PostDataFusion/DataManager.cpp:GetNextData", "Src/DataFusion.cpp:MeasureUpdatePos", "Src/DataFusion.cpp:Output", "Src/KalmanFilter.hpp:Update", "App/AppCommon/FileIO.cpp:NavWriter"]}
