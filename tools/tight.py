TIGHT.update({
("Fusion.initFusion","timeUpdateIdx"):["C119_schedule_restarts_partial"],
("Fusion.measureVel","else"):["C31_flags_after_odometer"],
("Fusion.measureVel","let z := vv"):["C94_odometer"],
("Convert.rvToDcm","Fl.sin s / s"):["C130_rodrigues_partial"],
("Ahrs.err","cross (a.Cnb 2)"):["C136_turns_to_the_force_partial","C136_at_rest_the_tilt_error_grows"],
})

TIGHT.update({
("Logging.measPosEv","[.f (Rk 0 0)"):["C103_meas_variances"],
("Logging.alignImuLog","if a.level"):["C157_ahrs_rows"],
("Logging.timeLog","else if d.status"):["C157_ahrs_rows"],
("Logging.alignGnssLog","then [] else"):["C157_align_rows"],
("Export.summary","t.length"):["C118_exact"],
("RtSim.pushPose","10000"):["C139_playback","C139_path_bounded"],
("Pipeline.gnssFmt","if format = 6"):["C134_fix_formats"],
("FileIO.TextIn.num","| .bad"):["C75_record_of_a_header"],
("Ahrs.acc0","Fl.lit (1 / 2)"):["C169_direction_only","C169_free_fall","C169_listens_above_half"],
("StaticDetect.update",""):["none: the edit writes a member that no function reads; the program's behaviour is unchanged"],
})

TIGHT.update({
("ErrAnalysis.common",""):["C166_rows_judged"],
("ErrAnalysis.planeErrors",""):["C166_rows_judged"],
("ErrAnalysis.exitStatus",""):["C166_rows_judged"],
("ErrAnalysis.binsOf",""):["C166_rows_judged"],
("ErrAnalysis.minOf",""):["none: the edit changes the case of an empty list, for which numpy raises and which the program never reaches"],
("ErrAnalysis.maxOf",""):["none: the edit changes the case of an empty list, for which numpy raises and which the program never reaches"],
("ErrAnalysis.fold360",""):["none: the value is brought into -180..180 afterwards, the result is the same"],
("OdoGen.tooLarge",""):["C165_huge_week"],
("OdoGen.storedInt",""):["none: the stored week of an out-of-range number is never written and the stream has failed"],
})

TIGHT.update({
("Scripts.showBias","match column t 1 with\n  | none"):["C171_bias_plot_short"],
("Scripts.showBias","| some s"):["C171_bias_plot_partial"],
("PyEarth.e2","noncomputable def e2"):["C174_same_place"],
("Kalman.new",""):["none: the edit changes the initial state estimate, which is overwritten before it is read"],
("RtSim.Player.new",""):["none: equivalent edit"],
("NavWriter.writer",""):["none: equivalent edit"],
})

TIGHT.update({
("UiThread.readNext",""):["none: a reader that failed is discarded by every caller, the state written is never read"],
("PureIns.initializePvaSample",""):["C92_start_gravity"],
("Kalman.new",""):["none: initialise overwrites the state before it is read"],
("RtSim.Player.new",""):["none: the raw record is overwritten before it is used"],
("NavWriter.writer",""):["none: the flag is not read after the writer is done"],
("PostOld.take",""):["none: both branches of the outage test leave the switch, so negating the test changes nothing"],
("RtSim.Node.step",""):["C140_waiting_fix_is_replaced"],
("Loader.loadMissing",""):["C204_missing_file_keeps_data"],
("Ahrs.acc0","if Fl.lt"):["C169_free_fall: already in the tree, the mutated copy was older"],
("RtSim.gnssCheck",""):["none: the node uses no fix at all (C140_no_fix_is_used)"],
("Pipeline.gnssFmt","if format = 0"):["C134_fix_formats: already in the tree, the mutated copy was older"],
("Kalman.ofState",""):["none: the counter is reset by every update and read by nothing"],
})
