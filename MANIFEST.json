{
 "claims": [
  {
   "property": "C01",
   "status": "proved",
   "theorems": [
    "Verif.Summary.summary_conserves_capacitance",
    "Verif.Summary.summary_conserves_capacitance_all_cells",
    "Verif.Summary.summarize_fails_iff"
   ],
   "note": "values are rationals instead of floats"
  },
  {
   "property": "C02",
   "status": "proved",
   "theorems": [
    "Verif.Summary.summary_order_independent",
    "Verif.Summary.summary_cell_order_independent",
    "Verif.Summary.summary_exists_in_any_order",
    "Verif.Summary.summary_exists_in_any_cell_order"
   ],
   "note": "exact arithmetic; float addition is not associative"
  },
  {
   "property": "C03",
   "status": "proved",
   "theorems": [
    "Verif.Summary.summary_keys_canonical",
    "Verif.Summary.merged_reports_sum"
   ],
   "note": ""
  },
  {
   "property": "C04",
   "status": "partial",
   "theorems": [
    "Verif.RNetlist.parallel_ways_enlarge",
    "Verif.RNetlist.parallel_ways_ex",
    "Verif.Summary.resistance_summary_single_partial",
    "Verif.Summary.resistance_summary_fails",
    "Verif.Summary.resistance_summary_adds"
   ],
   "note": "the code violates the property: parallel elements are added; negation proved by a witness"
  },
  {
   "property": "C05",
   "status": "partial",
   "theorems": [
    "Verif.Rcx25Netlist.netlist_contains_the_parasitics_partial",
    "Verif.Rcx25Netlist.expand_fails_iff",
    "Verif.Rcx25Netlist.net_names_unique_partial",
    "Verif.Rcx25Netlist.netlist_total_matches_recordings",
    "Verif.Rcx25Netlist.net_names_unique_fails",
    "Verif.Rcx25Netlist.cap_unit_fails"
   ],
   "note": "devices proved exactly; the code violates two parts: fF values are stored as F, and an existing VSUBS net is duplicated (witnesses)"
  },
  {
   "property": "C06",
   "status": "proved",
   "theorems": [
    "Verif.PexMode.mode_selects",
    "Verif.PexMode.unselected_ignored",
    "Verif.PexMode.selected_failure_reported",
    "Verif.PexMode.unselected_absent",
    "Verif.PexMode.mode_table"
   ],
   "note": "what the extractors find is a parameter"
  },
  {
   "property": "C07",
   "status": "proved",
   "theorems": [
    "Verif.Maxwell.netlist_reproduces_maxwell",
    "Verif.Maxwell.coupling_from_upper_triangle",
    "Verif.Maxwell.expand_nets",
    "Verif.Maxwell.cap_devices_exact",
    "Verif.Maxwell.vsubs_is_duplicated",
    "Verif.Maxwell.example_meets_hypotheses"
   ],
   "note": "for symmetric matrices; couplings come from the upper triangle only"
  },
  {
   "property": "C08",
   "status": "proved",
   "theorems": [
    "Verif.Maxwell.only_positive_caps",
    "Verif.Maxwell.cap_names_distinct",
    "Verif.Maxwell.unknown_axis_rejected",
    "Verif.Maxwell.same_net_twice_fails"
   ],
   "note": ""
  },
  {
   "property": "C09",
   "status": "proved",
   "theorems": [
    "Verif.CapMatrix.averaging_correct",
    "Verif.CapMatrix.averaged_symm",
    "Verif.CapMatrix.averaging_idempotent",
    "Verif.CapMatrix.averaging_preserves_sum"
   ],
   "note": "exact arithmetic"
  },
  {
   "property": "C10",
   "status": "proved",
   "theorems": [
    "Verif.CapMatrix.csv_round_trip",
    "Verif.CapMatrix.csv_empty_matrix_rejected",
    "Verif.CapMatrix.csv_separator_in_name_fails"
   ],
   "note": "number format and float() are parameters; at least one name and one row"
  },
  {
   "property": "C11",
   "status": "partial",
   "theorems": [
    "Verif.SolverLog.fastercap_last_matrix",
    "Verif.SolverLog.fastercap_no_matrix_rejected",
    "Verif.SolverLog.fastercap_truncated",
    "Verif.SolverLog.fastercap_truncated_partial",
    "Verif.SolverLog.fastercap_truncated_fails",
    "Verif.SolverLog.fastercap_cut_row_fails"
   ],
   "note": "complete matrices and logs without a matrix proved; truncated logs: exact behaviour proved (negative index wraps to the start of the file), which violates the last clause (witnesses)"
  },
  {
   "property": "C12",
   "status": "partial",
   "theorems": [
    "Verif.SolverLog.fastcap_last_matrix_partial",
    "Verif.SolverLog.fastcap_no_matrix_rejected",
    "Verif.SolverLog.fastcap_unit_ignored",
    "Verif.SolverLog.fastcap_unit_ignored_fails",
    "Verif.SolverLog.fastcap_padded_name_fails"
   ],
   "note": "last matrix proved; the code violates the unit clause: the announced unit is ignored (proved for all units)"
  },
  {
   "property": "C13",
   "status": "proved",
   "theorems": [
    "Verif.Reduce.reduction_exact",
    "Verif.Reduce.reduction_default",
    "Verif.Reduce.reduction_unknown_top"
   ],
   "note": "combine_devices of KLayout is a parameter"
  },
  {
   "property": "C14",
   "status": "proved",
   "theorems": [
    "Verif.Sweep.material_occupancy",
    "Verif.Sweep.heights_exact",
    "Verif.Sweep.height_rounding"
   ],
   "note": "Regions are finite sets of cells, heights exact rationals rounded as in the code."
  },
  {
   "property": "C15",
   "status": "proved",
   "theorems": [
    "Verif.Sweep.materials_disjoint",
    "Verif.Sweep.no_overlap_error"
   ],
   "note": ""
  },
  {
   "property": "C16",
   "status": "proved",
   "theorems": [
    "Verif.Sweep.interfaces_emitted",
    "Verif.Sweep.contacts_emitted"
   ],
   "note": "Between two touching nets only the bottom of the upper one is emitted (labelled void or with a hidden dielectric)."
  },
  {
   "property": "C17",
   "status": "partial",
   "theorems": [
    "Verif.Sweep.no_spurious_partial",
    "Verif.Sweep.no_surface_inside",
    "Verif.Sweep.wrong_label_only_above",
    "Verif.Sweep.no_spurious_fails",
    "Verif.Sweep.no_spurious_fails_stack"
   ],
   "note": "The full statement is false: overlapping dielectrics give extra surfaces. Proved: exactness where different nets and different dielectrics are not drawn over each other; in general, surfaces only lie on interfaces and only the upper label can be wrong."
  },
  {
   "property": "C18",
   "status": "proved",
   "theorems": [
    "Verif.Sweep.walls_exact",
    "Verif.Sweep.walls_once"
   ],
   "note": ""
  },
  {
   "property": "C19",
   "status": "proved",
   "theorems": [
    "Verif.Finalize.finalize_ok",
    "Verif.Finalize.finalize_lossless",
    "Verif.Finalize.finalize_one_orientation"
   ],
   "note": "The Delaunay triangulation is a parameter."
  },
  {
   "property": "C20",
   "status": "proved",
   "theorems": [
    "Verif.ListFile.conductors_read",
    "Verif.ListFile.dielectrics_read",
    "Verif.ListFile.write_succeeds"
   ],
   "note": "Files are records; number formatting is not modelled."
  },
  {
   "property": "C21",
   "status": "partial",
   "theorems": [
    "Verif.ListFile.names_distinct",
    "Verif.ListFile.names_no_slash_partial",
    "Verif.ListFile.names_short_partial",
    "Verif.ListFile.bytes_ascii",
    "Verif.ListFile.names_fail_slash",
    "Verif.ListFile.names_fail_material",
    "Verif.ListFile.names_fail_bytes"
   ],
   "note": "Distinctness is proved for all names. Validity is false for names with slashes, long dielectric names and multi-byte characters; proved otherwise."
  },
  {
   "property": "C22",
   "status": "partial",
   "theorems": [
    "Verif.Stack3d.build_terminates_partial",
    "Verif.Stack3d.build_succeeds",
    "Verif.Stack3d.build_loops"
   ],
   "note": "Proved for stacks in which metals and wrapped dielectrics have a name of their own; with a repeated name the loop need not end (counterexample), and the technology loader does not check names."
  },
  {
   "property": "C23",
   "status": "proved",
   "theorems": [
    "Verif.RNet.network_stays_consistent",
    "Verif.RNet.self_loop_breaks"
   ],
   "note": "histories whose operations use known, distinct nodes; adding a conductance from a node to itself breaks the network (witness)"
  },
  {
   "property": "C24",
   "status": "partial",
   "theorems": [
    "Verif.RNet.eliminate_node_preserves_behaviour_partial",
    "Verif.RNet.eliminate_node_tiny_error",
    "Verif.RNet.eliminate_node_tiny_fails"
   ],
   "note": "exact when the conductances at the node sum to more than 1e-10; below the code drops the node (bounded error proved, witness of inexactness)"
  },
  {
   "property": "C25",
   "status": "partial",
   "theorems": [
    "Verif.RNet.precious_exact",
    "Verif.RNet.eliminate_all_keeps_terminals",
    "Verif.RNet.eliminate_all_preserves_behaviour_partial",
    "Verif.RNet.eliminate_all_exact_partial",
    "Verif.RNet.eliminate_all_error"
   ],
   "note": "termination and kept terminals proved in general; behaviour exact if every conductance is zero or above 1e-10 S times the number of nodes to eliminate (eliminate_all_exact_partial), and for every run without a tiny star; false below (eliminate_node_tiny_fails of C24), but there the terminal currents differ by at most 1e-10 S x number of eliminated nodes x range of the terminal voltages (eliminate_all_error, every network)"
  },
  {
   "property": "C26",
   "status": "proved",
   "theorems": [
    "Verif.RNet.conductances_nonneg"
   ],
   "note": ""
  },
  {
   "property": "C27",
   "status": "proved",
   "theorems": [
    "Verif.RNet.parallel_laws",
    "Verif.RNet.serial_laws",
    "Verif.RNet.combining_does_not_alter_operands"
   ],
   "note": ""
  },
  {
   "property": "C28",
   "status": "partial",
   "theorems": [
    "Verif.Skinny.skinny_split_partial",
    "Verif.Skinny.skinny_split_misplaced",
    "Verif.Skinny.skinny_split_fails",
    "Verif.Skinny.not_skinny_unchanged"
   ],
   "note": "the code returns i != 0 instead of i: wrong side is split when the long side is opposite to the second vertex (proved for all such triangles)"
  },
  {
   "property": "C29",
   "status": "partial",
   "theorems": [
    "Verif.RRequest.request_exact_partial",
    "Verif.RRequest.extractor_input_exact",
    "Verif.RRequest.request_shapes_duplicated"
   ],
   "note": "pins and terminals are partitioned; the shapes of a net are in its request once per LVS layer with the GDS number (request_shapes_duplicated), but reach the extractor exactly once (extractor_input_exact)"
  },
  {
   "property": "C30",
   "status": "proved",
   "theorems": [
    "Verif.Overlap.covered_once",
    "Verif.Overlap.overlap_exact",
    "Verif.Overlap.areas_add_up",
    "Verif.Overlap.records_sound",
    "Verif.Overlap.extract_exact"
   ],
   "note": "per polygon and for the whole cell; requires specifications for the layer pairs that occur (see C31) and non-negative (for the sum of areas: positive) technology values"
  },
  {
   "property": "C31",
   "status": "partial",
   "theorems": [
    "Verif.Overlap.overlap_exact_below_partial",
    "Verif.Overlap.missing_spec_stops",
    "Verif.Overlap.missing_spec_fails"
   ],
   "note": "false as stated: a foreign shape on an unspecified layer suppresses all records for it and the layers above; layers below it are exact"
  },
  {
   "property": "C32",
   "status": "proved",
   "theorems": [
    "Verif.Fringe.sidewall_record",
    "Verif.Fringe.sidewall_law",
    "Verif.Fringe.sidewall_pair"
   ],
   "note": ""
  },
  {
   "property": "C33",
   "status": "proved",
   "theorems": [
    "Verif.Fringe.fringe_additive",
    "Verif.Fringe.fringe_nonneg_mono",
    "Verif.Fringe.fringe_full_halo"
   ],
   "note": ""
  },
  {
   "property": "C34",
   "status": "partial",
   "theorems": [
    "Verif.Fringe.fringe_records",
    "Verif.Fringe.fringe_exact",
    "Verif.Fringe.fringe_order_partial",
    "Verif.Fringe.fringe_order_fails",
    "Verif.Fringe.fringe_all_lost"
   ],
   "note": "false as stated: a piece that ends at the edge stops the loop over the remaining polygons (counterexample); proved for neighbourhoods without such a piece"
  },
  {
   "property": "C35",
   "status": "proved",
   "theorems": [
    "Verif.Fringe.nearest_selected",
    "Verif.Fringe.interval_exact"
   ],
   "note": ""
  },
  {
   "property": "C36",
   "status": "partial",
   "theorems": [
    "Verif.LvsCache.lvsdb_fresh_partial",
    "Verif.LvsCache.lvsdb_found_partial",
    "Verif.LvsCache.uncached_fresh",
    "Verif.LvsCache.ownCache_of_default",
    "Verif.LvsCache.stale_same_name",
    "Verif.LvsCache.stale_setup",
    "Verif.LvsCache.stale_shared_cache",
    "Verif.LvsCache.stale_lvs_failure",
    "Verif.LvsCache.stale_old_mtime",
    "Verif.LvsCache.stale_concurrent_edit",
    "Verif.LvsCache.removed_output_fails"
   ],
   "note": "proved for all histories under five hypotheses; each stale_* theorem is a history that violates one of them and in which the claim is false"
  },
  {
   "property": "C37",
   "status": "partial",
   "theorems": [
    "Verif.CliArgs.accept_iff_partial",
    "Verif.CliArgs.accepted_layout",
    "Verif.CliArgs.accepted_database",
    "Verif.CliArgs.crash_iff",
    "Verif.CliArgs.errors_exact",
    "Verif.CliArgs.empty_gds",
    "Verif.CliArgs.engines_exact"
   ],
   "note": "acceptance characterised for all arguments but --gds \"\", which is accepted although there is no input (empty_gds)"
  },
  {
   "property": "C38",
   "status": "partial",
   "theorems": [
    "Verif.Options.bool_exact_partial",
    "Verif.Options.bool_default",
    "Verif.Options.digits_rejected"
   ],
   "note": "exact for the words in any letter case; digits_rejected shows that the spellings 1 and 0, which the code lists, are rejected"
  },
  {
   "property": "C39",
   "status": "partial",
   "theorems": [
    "Verif.Options.contradictory_rejected",
    "Verif.Options.included_exact",
    "Verif.Options.filter_agrees_partial",
    "Verif.Options.filter_disagrees",
    "Verif.Options.all_but",
    "Verif.Options.none_but",
    "Verif.Options.upper_case_ignored"
   ],
   "note": "filter and is_included agree for patterns with all or none; filter_disagrees shows that they differ for every other pattern with an inclusion"
  },
  {
   "property": "C40",
   "status": "partial",
   "theorems": [
    "Verif.Rdb.path_round_trip_partial",
    "Verif.Rdb.quoted_round_trip_partial",
    "Verif.Rdb.last_empty_lost",
    "Verif.Rdb.other_escape_fails"
   ],
   "note": "proved for all names if the last one is not empty and only dots, quotes and backslashes are escaped; the other two theorems show that it fails otherwise"
  },
  {
   "property": "C41",
   "status": "partial",
   "theorems": [
    "Verif.Rdb.repair_complete_partial",
    "Verif.Rdb.repair_keeps",
    "Verif.Rdb.repair_idempotent",
    "Verif.Rdb.repair_minimal",
    "Verif.Rdb.repair_succeeds",
    "Verif.Rdb.repair_succeeds_iff",
    "Verif.Rdb.quote_fails"
   ],
   "note": "complete, keeping and idempotent whenever repair succeeds, with the exact condition for success for files in which categories have category lists (as KLayout writes them); quote_fails shows that a quote in a name makes it fail"
  },
  {
   "property": "C42",
   "status": "partial",
   "theorems": [
    "Verif.TechInfo.overlap_lookup",
    "Verif.TechInfo.overlap_lookup_none",
    "Verif.TechInfo.side_table_loads",
    "Verif.TechInfo.side_overlap_lookup_partial",
    "Verif.TechInfo.side_overlap_lookup_fails"
   ],
   "note": "proved for overlaps; for side overlaps the table fails to load exactly if an inside layer has no substrate entry"
  },
  {
   "property": "C43",
   "status": "proved",
   "theorems": [
    "Verif.TechInfo.gds_pair_precedence",
    "Verif.TechInfo.single_lookups"
   ],
   "note": "all lookups by one key included"
  },
  {
   "property": "C44",
   "status": "proved",
   "theorems": [
    "Verif.TechInfo.milliohm_exact",
    "Verif.TechInfo.contact_conductance"
   ],
   "note": "the division of the specific resistance by the via area happens inside KLayout"
  },
  {
   "property": "C45",
   "status": "proved",
   "theorems": [
    "Verif.Lvs.layers_exact",
    "Verif.Lvs.layers_once",
    "Verif.Lvs.shapes_of_layer_exact",
    "Verif.Lvs.shapes_of_net_exact",
    "Verif.Lvs.nets_share_shapes"
   ],
   "note": "layers with a known name go to the group of their GDS pair, unknown ones with GDS numbers to the unnamed ones"
  },
  {
   "property": "C46",
   "status": "partial",
   "theorems": [
    "Verif.Shapes.point_round_trip",
    "Verif.Shapes.polygon_round_trip_partial",
    "Verif.Shapes.region_round_trip_partial",
    "Verif.Shapes.box_exact",
    "Verif.Shapes.round_trip_fails"
   ],
   "note": "proved for polygons without holes and nets that are not the empty string; round_trip_fails shows that holes and empty net names are lost"
  },
  {
   "property": "C47",
   "status": "partial",
   "theorems": [
    "Verif.NetJson.json_exact",
    "Verif.NetJson.json_only_drawable",
    "Verif.NetJson.dense_partial",
    "Verif.NetJson.instance_lost"
   ],
   "note": "one number per net name is proved for all circuits; dense if no entry is overwritten; instance_lost shows that of two instances of one circuit only one is written"
  },
  {
   "property": "C48",
   "status": "partial",
   "theorems": [
    "Verif.LogFiles.run_keeps_partial",
    "Verif.LogFiles.history_keeps_partial",
    "Verif.LogFiles.run_logged",
    "Verif.LogFiles.log_lost"
   ],
   "note": "kept for all histories in which each run begins at least a second after the previous one ends; log_lost shows that three runs within a second lose the first log"
  },
  {
   "property": "C49",
   "status": "partial",
   "theorems": [
    "Verif.LayerMap.mapping_ok_iff",
    "Verif.LayerMap.target_unique",
    "Verif.LayerMap.converted_exact",
    "Verif.LayerMap.reported_exact",
    "Verif.LayerMap.dummy_separate",
    "Verif.LayerMap.guess_exact",
    "Verif.LayerMap.invert_exact",
    "Verif.LayerMap.convert_exact_partial",
    "Verif.LayerMap.layers_merged",
    "Verif.LayerMap.layer_parsed"
   ],
   "note": "targets, reports and output content are exact; the last part (no two layers of different meaning on one target) is false for the table in the code (layers_merged)"
  },
  {
   "property": "C50",
   "status": "proved",
   "theorems": [
    "Verif.RNet.connect_nodes_is_short",
    "Verif.RNet.connect_nodes_self_deletes",
    "Verif.RNet.connect_nodes_isolated_noop"
   ],
   "note": "the second node must have a connection (an isolated one stays); connecting a node with itself deletes it"
  },
  {
   "property": "C51",
   "status": "proved",
   "theorems": [
    "Verif.Rcx25Netlist.csv_rows_match_netlist"
   ],
   "note": ""
  },
  {
   "property": "C52",
   "status": "proved",
   "theorems": [
    "Verif.Reduce.csv_shows_parasitics",
    "Verif.Reduce.csv_written"
   ],
   "note": ""
  },
  {
   "property": "C53",
   "status": "partial",
   "theorems": [
    "Verif.Pipeline.fastercap_flow_correct",
    "Verif.Pipeline.fastcap_flow_partial"
   ],
   "note": "proved for the FasterCap flow; for FastCap2 up to the unit, which the code ignores (see C12)"
  },
  {
   "property": "C54",
   "status": "proved",
   "theorems": [
    "Verif.Finalize.reference_point_side",
    "Verif.Finalize.reference_point_reversed",
    "Verif.Finalize.bottom_faces_down",
    "Verif.Finalize.top_faces_up",
    "Verif.Finalize.wall_faces_left",
    "Verif.Finalize.wall_upright"
   ],
   "note": "Over the reals."
  },
  {
   "property": "C55",
   "status": "proved",
   "theorems": [
    "Verif.Stack3d.conductors_exact"
   ],
   "note": ""
  },
  {
   "property": "C56",
   "status": "proved",
   "theorems": [
    "Verif.Stack3d.dielectrics_exact"
   ],
   "note": ""
  },
  {
   "property": "C57",
   "status": "proved",
   "theorems": [
    "Verif.Stack3d.no_gaps"
   ],
   "note": "Assumes that growing a region by a non-negative amount does not remove anything from it."
  },
  {
   "property": "C58",
   "status": "proved",
   "theorems": [
    "Verif.Stack3d.materials_last",
    "Verif.Stack3d.materials_exact"
   ],
   "note": "the second for stacks that give each name one permittivity; the first, without this assumption, says that the last one counts"
  },
  {
   "property": "C59",
   "status": "proved",
   "theorems": [
    "Verif.Fringe.interval_exact",
    "Verif.Fringe.interval_layers",
    "Verif.Fringe.interval_skipped",
    "Verif.Fringe.fringe_total_bounded",
    "Verif.Fringe.extract_concat"
   ],
   "note": "under the stated contract of KLayout's edge neighbourhoods and for neighbourhoods without the piece of C34"
  },
  {
   "property": "C60",
   "status": "partial",
   "theorems": [
    "Verif.Lvs.pins_exact",
    "Verif.Lvs.pins_once_partial",
    "Verif.Lvs.pins_duplicated",
    "Verif.RRequest.pins_ok_iff"
   ],
   "note": "the pins are exact per source layer; a label is reported once if its layer has one source layer, and pins_duplicated shows that it is reported once per source layer otherwise"
  },
  {
   "property": "C61",
   "status": "partial",
   "theorems": [
    "Verif.Lvs.devices_exact_partial",
    "Verif.Lvs.unconnected_terminal_fails",
    "Verif.RRequest.devices_ok_iff"
   ],
   "note": "exact whenever the devices can be read; devices_ok_iff says exactly when; unconnected_terminal_fails shows that a terminal without net aborts"
  },
  {
   "property": "C62",
   "status": "partial",
   "theorems": [
    "Verif.RRequest.tech_exact_partial",
    "Verif.RRequest.empty_via_entry",
    "Verif.RRequest.klayout_tech_exact"
   ],
   "note": "exact, including the defect that a via without contact in the process stack leaves an empty entry (empty_via_entry)"
  },
  {
   "property": "C63",
   "status": "proved",
   "theorems": [
    "Verif.RRequest.results_exact",
    "Verif.RRequest.results_succeed",
    "Verif.RRequest.results_example"
   ],
   "note": "the output of KLayout's extractor is arbitrary"
  },
  {
   "property": "C64",
   "status": "partial",
   "theorems": [
    "Verif.RRequest.pin_ports_declared",
    "Verif.RRequest.request_ports_declared_partial",
    "Verif.RRequest.request_ports_undeclared",
    "Verif.RRequest.terminal_ports_declared_partial",
    "Verif.RRequest.terminal_ports_undeclared"
   ],
   "note": "holds for pins, and for terminals if one LVS layer has the GDS number; otherwise it fails for at least one LVS layer"
  },
  {
   "property": "C65",
   "status": "proved",
   "theorems": [
    "Verif.Engine25.layers_ok_iff",
    "Verif.Engine25.layers_exact",
    "Verif.Engine25.IsStack.unique",
    "Verif.Engine25.substrate_covers"
   ],
   "note": "layers_ok_iff states exactly when the layers can be collected; substrate_covers assumes that one of the two bounding boxes contains the other"
  },
  {
   "property": "C66",
   "status": "proved",
   "theorems": [
    "Verif.Engine25.netlist_cells",
    "Verif.Engine25.netlist_geometry",
    "Verif.Engine25.netlist_capacitance",
    "Verif.Engine25.views_sum",
    "Verif.Engine25.edge_total",
    "Verif.Engine25.overlap_recorded",
    "Verif.Pdk.shipped_cells",
    "Verif.Pdk.shipped_netlist",
    "Verif.Engine25.exNetlist",
    "Verif.Engine25.exFaithful",
    "Verif.Pdk.geoSpaced",
    "Verif.Pdk.geoVisits"
   ],
   "note": "netlist_geometry: exact down to the visible rectangles, netlist_cells: sums over the cells of the layout, shipped_cells: the same for the shipped technologies without conditions on the technology; given that KLayout merges polygons, reports complete neighbourhoods (Faithful) and visits every edge with intervals that show what lies in front of it (Visits); rounding of reals to floats is a parameter; geoVisits and geoSpaced: a cell with three wires for which all assumptions hold"
  },
  {
   "property": "C67",
   "status": "partial",
   "theorems": [
    "Verif.Magic.ext_exact_partial",
    "Verif.Magic.res_exact_partial",
    "Verif.Magic.special_nets_dropped"
   ],
   "note": "exact for lines with the names the expressions accept; nets with other characters are dropped (proved for all such names). Lines of a file contain no newline inside; letters and digits are ASCII"
  },
  {
   "property": "C68",
   "status": "partial",
   "theorems": [
    "Verif.Magic.run_exact_partial",
    "Verif.Magic.exDir_clean",
    "Verif.Magic.run_clash",
    "Verif.Magic.run_res_clash"
   ],
   "note": "for cell names without .ext and without .res at the end; witnesses of mixed up cells otherwise"
  },
  {
   "property": "C69",
   "status": "partial",
   "theorems": [
    "Verif.Magic.report_exact_partial"
   ],
   "note": "for the same cell names, if 5 nm is a multiple of the database unit; what the parser drops (C67) is missing in the report, rounding of floats is not modelled"
  },
  {
   "property": "C70",
   "status": "partial",
   "theorems": [
    "Verif.Magic.script_faithful_partial",
    "Verif.Magic.exArgs_plain",
    "Verif.Magic.script_blank_path"
   ],
   "note": "for arguments without white space and Tcl special characters; witness for a blank in a path"
  },
  {
   "property": "C71",
   "status": "proved",
   "theorems": [
    "Verif.Checker.check_ends",
    "Verif.Checker.check_sound",
    "Verif.Checker.check_complete",
    "Verif.Checker.check_iff",
    "Verif.Checker.check_clean",
    "Verif.Checker.check_no_false_alarm",
    "Verif.Checker.grid_exact",
    "Verif.Checker.pillow_checked",
    "Verif.Checker.open_sheet_undetected",
    "Verif.Checker.touching_solids_reported",
    "Verif.Checker.exGen_clean"
   ],
   "note": "for every iteration order of Python's sets; the two examples show that the excluded cases (coinciding sheets, solids touching along a side) really differ"
  },
  {
   "property": "C72",
   "status": "proved",
   "theorems": [
    "Verif.Checker.stl_exact",
    "Verif.Checker.dump_exact",
    "Verif.Checker.dump_slash",
    "Verif.Checker.exGen_dumped"
   ],
   "note": "the text of a coordinate is a parameter; dump_slash: a net name with a slash is a FileNotFoundError"
  },
  {
   "property": "C73",
   "status": "partial",
   "theorems": [
    "Verif.Wall.wall_manhattan",
    "Verif.Wall.wall_near_partial",
    "Verif.Wall.plane_of_line",
    "Verif.Wall.round_conversion",
    "Verif.Wall.examples",
    "Verif.Wall.wall_diagonal_off",
    "Verif.Wall.wall_diagonal_long"
   ],
   "note": "exact for edges along the axes; other edges are displaced by up to one database unit (wall_diagonal_off), or by more if KLayout makes integers of the unit vector (wall_diagonal_long)"
  },
  {
   "property": "C74",
   "status": "partial",
   "theorems": [
    "Verif.Runners.fastercap_started",
    "Verif.Runners.fastcap_started",
    "Verif.Runners.magic_started",
    "Verif.Runners.lvs_started_partial",
    "Verif.Runners.run_logged",
    "Verif.Runners.run_console",
    "Verif.Runners.run_not_found",
    "Verif.Runners.strict_success",
    "Verif.Runners.sameText_unique",
    "Verif.Runners.lvs_failure_ignored",
    "Verif.Runners.console_cut"
   ],
   "note": "holds for FasterCap, FastCap2 and Magic; lvs_failure_ignored: a failed LVS run is no exception; console_cut: the console loses the last character of an unterminated last line"
  },
  {
   "property": "C75",
   "status": "proved",
   "theorems": [
    "Verif.Runners.fastercap_started",
    "Verif.Runners.fastcap_started",
    "Verif.Runners.magic_started",
    "Verif.Runners.magic_not_started",
    "Verif.Runners.lvs_started_partial",
    "Verif.Runners.fastercap_command",
    "Verif.Runners.fastcap_command",
    "Verif.Runners.fastcap_words",
    "Verif.Runners.magic_command",
    "Verif.Runners.lvs_command"
   ],
   "note": "numbers are given by their text; without a configuration file Magic is not started (TypeError); lvs_started_partial is partial for C74 only"
  },
  {
   "property": "C76",
   "status": "partial",
   "theorems": [
    "Verif.Runners.fastercap_results",
    "Verif.Runners.fastcap_results_partial",
    "Verif.Runners.fastcap_failure",
    "Verif.Runners.fastcap_relative",
    "Verif.Runners.exWorld_absolute",
    "Verif.Runners.exWorld_meets",
    "Verif.Runners.exWorld_relative"
   ],
   "note": "FasterCap completely; FastCap2 for absolute output directories: fastcap_relative shows that every run with a relative one (as the default) fails after the solver"
  },
  {
   "property": "C77",
   "status": "proved",
   "theorems": [
    "Verif.Runners.main_exact"
   ],
   "note": "for arbitrary behaviour of the steps"
  },
  {
   "property": "C78",
   "status": "partial",
   "theorems": [
    "Verif.Runners.programs_exact_partial",
    "Verif.Runners.pdkpath_without_pdk",
    "Verif.Runners.empty_variable",
    "Verif.Runners.magic_without_rc",
    "Verif.Runners.env_meets"
   ],
   "note": "pdkpath_without_pdk: PDKPATH without PDK makes every call fail"
  },
  {
   "property": "C79",
   "status": "partial",
   "theorems": [
    "Verif.Reporter.overlap_shown",
    "Verif.Reporter.sidewall_shown",
    "Verif.Reporter.fringe_shown",
    "Verif.Reporter.entries_differ",
    "Verif.Reporter.results_shown_partial",
    "Verif.Reporter.exText_paths",
    "Verif.Reporter.exShown",
    "Verif.Reporter.dash_shared"
   ],
   "note": "Proved for all sequences of records; the link to the tables of the results holds for overlap only for net names without the dash ' \u2013 ', else two pairs of nets share a category (dash_shared)."
  },
  {
   "property": "C80",
   "status": "proved",
   "theorems": [
    "Verif.Reporter.result_reported_iff",
    "Verif.Reporter.result_shown",
    "Verif.Reporter.exNetwork_shown"
   ],
   "note": "Exact list of report entries. A node id that occurs twice in a network stands for the last node."
  },
  {
   "property": "C81",
   "status": "partial",
   "theorems": [
    "Verif.Reporter.request_reported_iff",
    "Verif.Reporter.request_shown_partial",
    "Verif.Reporter.via_outside_stack",
    "Verif.Reporter.exVia_reported"
   ],
   "note": "The entries are exact when the report can be written; 'never ends the run' is false: it is written exactly if the layers below and above all vias are conductors of the request, and a via layer outside the process stack ends the run (via_outside_stack)."
  },
  {
   "property": "C82",
   "status": "proved",
   "theorems": [
    "Verif.Pdk.shipped_builds",
    "Verif.Pdk.shipped_dielectrics",
    "Verif.Pdk.shipped_wraps",
    "Verif.Pdk.shipped_field_oxide"
   ],
   "note": "the stacks are transcribed from the C++ tables by tools/gen_pdk.py; decimals are exact"
  },
  {
   "property": "C83",
   "status": "proved",
   "theorems": [
    "Verif.Pdk.shipped_no_gaps"
   ],
   "note": "assumes that growing a region by a non-negative amount does not remove anything from it"
  },
  {
   "property": "C84",
   "status": "proved",
   "theorems": [
    "Verif.Pdk.shipped_vias_connect",
    "Verif.Pdk.shipped_vias_end"
   ],
   "note": ""
  },
  {
   "property": "C85",
   "status": "partial",
   "theorems": [
    "Verif.Pdk.wrapped_height_partial",
    "Verif.Pdk.topox_too_low",
    "Verif.Pdk.pass2_too_high"
   ],
   "note": "false as stated: a sidewall dielectric with a height above the metal does not count the metal, a second conformal dielectric counts it twice; one layer of each shipped technology is affected"
  },
  {
   "property": "C86",
   "status": "partial",
   "theorems": [
    "Verif.Pdk.shipped_layout_partial",
    "Verif.Pdk.shipped_runs_halo_partial",
    "Verif.Pdk.shipped_runs_partial",
    "Verif.Pdk.spaced_of_layout",
    "Verif.Pdk.mim_fails",
    "Verif.Pdk.too_close_fails",
    "Verif.Fringe.extract_succeeds",
    "Verif.Fringe.extract_fails",
    "Verif.Fringe.extract_fails_sidewall"
   ],
   "note": "proved for cells without MIM capacitors whose nets are more than 0.057 \u00b5m apart (capacitances and netlist; with resistors up to the result of the extraction); false otherwise, with proofs for the MIM plates of both technologies and for 0.057 \u00b5m on Metal1 of ihp_sg13g2; conditions for an arbitrary technology"
  },
  {
   "property": "C87",
   "status": "partial",
   "theorems": [
    "Verif.Pdk.shipped_layout_partial",
    "Verif.Pdk.shipped_nonneg_partial",
    "Verif.Fringe.extract_positive",
    "Verif.Pdk.metal1_negative"
   ],
   "note": "proved for nets more than 0.057 \u00b5m apart; false for Metal1 of ihp_sg13g2 below that distance, because the negative offset is added to the distance"
  },
  {
   "property": "C88",
   "status": "partial",
   "theorems": [
    "Verif.Pdk.sg_resistors_partial",
    "Verif.Pdk.shipped_resistors_iff",
    "Verif.Pdk.sky_pins_fail",
    "Verif.RRequest.tech_ok_iff",
    "Verif.Pdk.shipped_request_partial",
    "Verif.Pdk.blackbox_fails",
    "Verif.Pdk.mim_blackbox_fails",
    "Verif.RRequest.request_ok_iff"
   ],
   "note": "the technology part is proved for ihp_sg13g2 (sg_resistors_partial); for sky130A false as soon as there is a pin shape on met1 to met5, because the names of these pin layers are also given to label layers (sky_pins_fail); shipped_resistors_iff is the exact condition, tech_ok_iff that for an arbitrary technology; the whole request is proved for both technologies under natural conditions on the LVS database (shipped_request_partial), request_ok_iff is the exact condition, and with blackboxed devices it is false for every device whose terminals are on a device layer, such as the MIM capacitors (blackbox_fails, mim_blackbox_fails)"
  },
  {
   "property": "C89",
   "status": "partial",
   "theorems": [
    "Verif.Pdk.shipped_vias_joined_partial",
    "Verif.Pdk.shipped_resistors_exact",
    "Verif.Pdk.sky_via1_missing",
    "Verif.Pdk.sky_mim_via",
    "Verif.Pdk.sg_mim_report_fails",
    "Verif.Pdk.exSky_resistors"
   ],
   "note": "the exact lists of conductors and vias are proved for both technologies; every contact and via of the stack joins its layers except via1_con of sky130A, which is missing, and the vias on its MIM plates, which are said to start on the lower plate; in ihp_sg13g2 the upper MIM plate is no conductor, so a via on it ends the run with a KeyError in the report"
  },
  {
   "property": "C90",
   "status": "partial",
   "theorems": [
    "Verif.Engine25.faces_freely_partial",
    "Verif.Engine25.wall_free_partial",
    "Verif.Engine25.own_polygon_ignored"
   ],
   "note": "proved for layouts where no polygon lies in front of its own edges; false otherwise: an edge that faces another arm of its own polygon is coupled to what lies behind this arm (own_polygon_ignored)"
  },
  {
   "property": "C91",
   "status": "proved",
   "theorems": [
    "Verif.Engine25.parallel_wires",
    "Verif.Engine25.parallel_wires_total"
   ],
   "note": "wallTotal is the sidewall part of the netlist by netlist_geometry (C66)"
  },
  {
   "property": "C92",
   "status": "proved",
   "theorems": [
    "Verif.Engine25.moved_netlist",
    "Verif.Engine25.moved_exact",
    "Verif.Pdk.shipped_moved"
   ],
   "note": "for a KLayout that merges the moved shapes as the moved merged shapes; exact if it reports the edges of the moved layers as it reports those of the layers, else up to rounding (each contribution of the fringe by the factor of the rounding, or below the threshold 0.0001)"
  },
  {
   "property": "C93",
   "status": "proved",
   "theorems": [
    "Verif.Engine25.local_netlist",
    "Verif.Pdk.shipped_local"
   ],
   "note": "for a KLayout that merges net by net; near means within side_halo in both directions plus one database unit"
  },
  {
   "property": "C94",
   "status": "partial",
   "theorems": [
    "Verif.Pdk.shipped_pins_partial",
    "Verif.Pdk.sky_no_pins"
   ],
   "note": "exact for ihp_sg13g2 and for poly and li1 of sky130A, given that the pins can be read at all (C60); met1 to met5 of sky130A never have pins (sky_no_pins), because the names of their pin layers are given again to the label layers"
  },
  {
   "property": "C95",
   "status": "partial",
   "theorems": [
    "Verif.LayerMap.shipped_converts",
    "Verif.LayerMap.sky_converted",
    "Verif.LayerMap.sg_converted_partial",
    "Verif.LayerMap.sg_taken_for_sky",
    "Verif.LayerMap.sky_back_partial",
    "Verif.LayerMap.sg_back_partial",
    "Verif.LayerMap.sky_single",
    "Verif.LayerMap.sg_single",
    "Verif.LayerMap.li1_merged",
    "Verif.LayerMap.sky_lost"
   ],
   "note": "no layout is refused; sky130A layouts are recognised and mapped exactly; sg13g2 layouts only if one layer has numbers that sky130A does not have (sg_taken_for_sky: Metal3, Via3 and Metal4 alone are taken for sky130A); there and back every shape returns to its layer if the result is recognised (sky_lost: met2, via2 and met3 alone are lost), and on layers with a single target nothing is added (li1_merged: pins come back as labels as well)"
  },
  {
   "property": "C96",
   "status": "proved",
   "theorems": [
    "Verif.Engine25.plate_netlist",
    "Verif.Pdk.shipped_plate"
   ],
   "note": "bounding boxes of the cell equal to the plate; up to the rounding of each contribution (10\u207b\u2074 aF) and of the arctangents (\u03b5); the substrate reaches side_halo beyond the bounding box, so the part of the fringe field beyond it is not counted"
  },
  {
   "property": "C97",
   "status": "proved",
   "theorems": [
    "Verif.Engine25.renamed_netlist",
    "Verif.Pdk.shipped_renamed"
   ],
   "note": "for a KLayout that merges shapes per net whatever the names; shapes without net and the substrate keep their names"
  },
  {
   "property": "C98",
   "status": "partial",
   "theorems": [
    "Verif.Runners.svg_draws_partial",
    "Verif.Runners.svg_not_one",
    "Verif.Runners.svg_cell_fails",
    "Verif.Runners.svg_cell_ignored",
    "Verif.Runners.svg_not_found",
    "Verif.Runners.svg_no_document"
   ],
   "note": "Proved for every netlist, world and program: with one top circuit the tool is started with the written document of this circuit and the output path asked for, its output is logged and a non-zero exit code is an exception; otherwise nothing is written and the status says so. Missing because the code does not have it: the cell given with --cell is ignored (svg_cell_fails, svg_cell_ignored), so a netlist with two top circuits cannot be drawn."
  },
  {
   "property": "C99",
   "status": "proved",
   "theorems": [
    "Verif.Engine25.redrawn_run"
   ],
   "note": "For every technology, layout, mode and outcome of the resistance extraction: if on every layer every net covers the same area, the results of the two runs are equal, errors included. The assumption on KLayout is that merging a region depends only on the covered area (MergesArea); the resistance networks come from KLayout's extractor and are the same input on both sides."
  },
  {
   "property": "C100",
   "status": "partial",
   "theorems": [
    "Verif.Logging.messages_exact_partial",
    "Verif.Logging.louder_shows_more",
    "Verif.Logging.all_shows_warnings",
    "Verif.Logging.unreadable_ends_run",
    "Verif.Logging.argument_raises",
    "Verif.Logging.listed_accepted",
    "Verif.Logging.netlist_level_rejected"
   ],
   "note": "Proved for every level but all and every sequence of messages that Rich can show. False otherwise: the level all has the number 0, which Python reads as 'level of the parent', so only warnings and errors are shown (all_shows_warnings); a message that is no valid markup, such as one with the file name a[/b].gds, ends the run (unreadable_ends_run, an equivalence); the message about a --diel filter that cannot be parsed raises a TypeError (argument_raises); the netlist tool accepts no log level at all (netlist_level_rejected)."
  },
  {
   "property": "C101",
   "status": "partial",
   "theorems": [
    "Verif.Runners.magic_run_partial",
    "Verif.Runners.modes_apart",
    "Verif.Runners.magic_no_layout",
    "Verif.Runners.magic_no_config",
    "Verif.Runners.magic_stale",
    "Verif.Runners.magic_stale_ex"
   ],
   "note": "The flow of the Magic engine from the script to the report and the netlist; the program is a parameter. Not true in full: the directory of the run is not emptied, so a Magic that writes nothing at all leaves a successful run with the netlist and extraction files of an earlier one (magic_stale, magic_stale_ex); and without a layout (LVSDB input) nothing is done and the run still succeeds (magic_no_layout)."
  },
  {
   "property": "C102",
   "status": "partial",
   "theorems": [
    "Verif.Runners.convert_command_partial",
    "Verif.Runners.convert_refused",
    "Verif.Runners.convert_lists",
    "Verif.Runners.convert_writes_only",
    "Verif.Runners.convert_listed_level",
    "Verif.Runners.convert_no_output"
   ],
   "note": "The command line tool around the conversion of layouts, with the two layer files of the repository. Not true in full: setup_logging is called before the level is validated, with the text of the argument, so every name that --help lists ends with a ValueError (convert_listed_level); the directory of the output is not checked, but that of the input twice (convert_no_output). argparse is not modelled."
  },
  {
   "property": "C103",
   "status": "proved",
   "theorems": [
    "Verif.Engine25.crossing_netlist",
    "Verif.Pdk.shipped_crossing"
   ],
   "note": "two rectangles on different layers that cross, nothing else; up to the rounding of each contribution (10\u207b\u2074 fF) and of the arctangents (\u03b5)"
  },
  {
   "property": "C104",
   "status": "proved",
   "theorems": [
    "Verif.Runners.rcx25_results",
    "Verif.Runners.table_reads_back",
    "Verif.Runners.rcx25_fails",
    "Verif.Runners.rcx25_half",
    "Verif.Runners.lines_unique",
    "Verif.Runners.fields_unique",
    "Verif.Runners.semicolon_ambiguous"
   ],
   "note": "names of nets without semicolons and line ends for reading the table back: they are not quoted (semicolon_ambiguous)"
  },
  {
   "property": "C105",
   "status": "proved",
   "theorems": [
    "Verif.Runners.engines_together",
    "Verif.Runners.together_relative"
   ],
   "note": "all combinations; together_relative shows why the absolute path is needed: with a relative one the run ends with an exception after FastCap2, and the 2.5D engine is not started."
  },
  {
   "property": "C106",
   "status": "proved",
   "theorems": [
    "Verif.Runners.input_fresh",
    "Verif.Runners.stl_stale"
   ],
   "note": "Finding: STL files of nets and materials of earlier runs that this run does not have stay in the directory Geometries."
  },
  {
   "property": "C107",
   "status": "proved",
   "theorems": [
    "Verif.Runners.layers_dumped"
   ],
   "note": "Finding: a layout of unknown layers from an earlier run stays when this run has no unknown layers."
  },
  {
   "property": "C108",
   "status": "proved",
   "theorems": [
    "Verif.Runners.whole_run"
   ],
   "note": "Composition of C105, C106 and C107. Magic, which comes first, is left out."
  },
  {
   "property": "C109",
   "status": "partial",
   "theorems": [
    "Verif.Runners.analyzer_report_partial",
    "Verif.Runners.analyzer_no_directory",
    "Verif.Runners.analyzer_default_fails"
   ],
   "note": "Proved with --out. Without it every call fails: the default path is computed but not stored (analyzer_default_fails), so report.save gets None. Contents for the cell names of C68."
  },
  {
   "property": "C110",
   "status": "proved",
   "theorems": [
    "Verif.RNet.print_exact",
    "Verif.RNet.names_kept",
    "Verif.RNet.names_ex",
    "Verif.RNet.find_exact"
   ],
   "note": "For the histories of legal calls of C23; texts of numbers, points and identifiers are parameters."
  },
  {
   "property": "C111",
   "status": "proved",
   "theorems": [
    "Verif.Engine25.extract_refines",
    "Verif.Engine25.shown_placed",
    "Verif.Engine25.report_places",
    "Verif.Engine25.bent_shown"
   ],
   "note": "Figures are edges by their ends and polygons by the cells they cover. What KLayout reports in front of an edge is assumed to be what lies there (EdgeOK), and its decomposition of a region to be exact (KernelOK, KernelBands), as for C66. extract_refines: the extraction with its report has the same records and exceptions as the one of C59 and C66. shown_placed: every act of the run, debug output included, is at its place. report_places: the entries below a category are those of the results, with these shapes. bent_shown: a concrete layout that meets the hypotheses."
  },
  {
   "property": "C112",
   "status": "proved",
   "theorems": [
    "Verif.Engine25.overlaps_refine",
    "Verif.Engine25.overlaps_placed",
    "Verif.Engine25.report_overlaps",
    "Verif.Engine25.cover_shown"
   ],
   "note": "Polygons of one layer are assumed disjoint (no shorts, merged regions) and the neighbourhoods of KLayout are assumed to list the polygons that share area with the visited one; the polygons that KLayout hands out for a region are a parameter that must cover the region. Nets with an en dash in their name are excluded (see C79)."
  },
  {
   "property": "C113",
   "status": "proved",
   "theorems": [
    "Verif.RNet.eliminate_all_rounded"
   ],
   "note": "overflow and underflow are left out"
  },
  {
   "property": "C114",
   "status": "partial",
   "theorems": [
    "Verif.LayerNames.script_exact_partial",
    "Verif.LayerNames.match_exact",
    "Verif.LayerNames.Words.unique"
   ],
   "note": "exact for the code of main; but the file imports from a package kpex that the repository does not have, so the tool does not start; letters and digits are ASCII"
  },
  {
   "property": "C115",
   "status": "proved",
   "theorems": [
    "Verif.Summary.summary_rounded",
    "Verif.Summary.summary_rounded_order",
    "Verif.Summary.summary_rounded_exists",
    "Verif.Summary.sums_loop",
    "Verif.Summary.sums_once"
   ],
   "note": "every += is followed by a rounding with a bounded relative error (no overflow or underflow); of the built-in sum only an error bound is assumed, which adding one number after the other satisfies (sums_loop)"
  },
  {
   "property": "C116",
   "status": "proved",
   "theorems": [
    "Verif.Rounding.overlap_rounded",
    "Verif.Rounding.sidewall_rounded",
    "Verif.Rounding.fringe_rounded",
    "Verif.Rounding.summary_total_rounded",
    "Verif.Rounding.overlap_summary_rounded",
    "Verif.Rounding.double_precision",
    "Verif.Rounding.overlap_example",
    "Verif.Rounding.fringe_example"
   ],
   "note": "every float operation (also math.atan, math.pi and the literals) is followed by a rounding with a bounded relative error (no overflow or underflow); a fringe within the error of the threshold 0.0001 fF may be recorded in one computation only"
  },
  {
   "property": "C117",
   "status": "partial",
   "theorems": [
    "Verif.Rcx25Netlist.csv_rows_sorted",
    "Verif.Rcx25Netlist.output_order_free_partial",
    "Verif.Rcx25Netlist.case_order"
   ],
   "note": "the order of the rows is proved in general; equal files for equal recordings if no two reported pairs of nets differ only in case; case_order is a run in which they do and the order of the recordings shows. Exact values (rounding: C115); str.casefold is a parameter"
  },
  {
   "property": "C118",
   "status": "partial",
   "theorems": [
    "Verif.TechInfo.layers_by_name_partial",
    "Verif.TechInfo.contact_of_device",
    "Verif.TechInfo.broken_lookups"
   ],
   "note": "three look-ups raise: by GDS pair for every stack with a layer, of the contact above a metal for every stack with a metal, and the pin layer mapping always (its field is not part of the technology message, not modelled)"
  },
  {
   "property": "C119",
   "status": "proved",
   "theorems": [
    "Verif.RNet.node_identity",
    "Verif.RNet.request_effect",
    "Verif.RNet.nodes_found"
   ],
   "note": "whether a point lies on an edge is decided by KLayout and arbitrary here"
  },
  {
   "property": "C120",
   "status": "partial",
   "theorems": [
    "Verif.Engine25.counted_once_partial",
    "Verif.Engine25.stack_not_shielded",
    "Verif.Engine25.stack_counted_twice",
    "Verif.Engine25.stNetlist"
   ],
   "note": "false of the code where the lower net has several layers above each other: a layer of the same net does not shield those below it, so they count again (stack_not_shielded gives exactly when, stack_counted_twice the effect on the netlist, stNetlist a concrete layout); proved is that this is the only way in which a place counts twice"
  },
  {
   "property": "C121",
   "status": "partial",
   "theorems": [
    "Verif.Engine25.larger_halo_partial",
    "Verif.Pdk.shipped_larger_halo_partial",
    "Verif.Engine25.scaled_halo_shrinks"
   ],
   "note": "proved for the option --scale false, up to rounding; false for the default, which scales the fringe capacitance to the halo: with two crossing wires that end within the halo a larger halo makes the capacitance smaller"
  },
  {
   "property": "C122",
   "status": "partial",
   "theorems": [
    "Verif.RNetlist.resistor_iff_element",
    "Verif.RNetlist.nets_stay_apart_partial",
    "Verif.RNetlist.ports_of_a_net_merged",
    "Verif.RNetlist.resistance_between_ports_lost",
    "Verif.RNetlist.inner_names_join_nets",
    "Verif.RNetlist.resistor_values",
    "Verif.RNetlist.parallel_ways_enlarge",
    "Verif.RNetlist.parallel_ways_ex"
   ],
   "note": "resistors are exactly those of the networks, with the sum of the resistances of all elements between two nodes (parallel ways are added, see C04); nets stay apart if inner nodes of different nets have different names that are no net names (KLayout's names are not modelled; a witness shows that the netlist joins two nets otherwise); the code violates the last part: all ports of a net are merged into the net (proved in general, with a witness)"
  },
  {
   "property": "C123",
   "status": "partial",
   "theorems": [
    "Verif.LvsRules.vias_join_partial",
    "Verif.LvsRules.vias_join_layers_partial",
    "Verif.LvsRules.vias_apart",
    "Verif.LvsRules.layers_named",
    "Verif.LvsRules.vias_join_ex"
   ],
   "note": "proved except at the listed gaps, which are places where the scripts do not join them (each with a layout in which they are apart): sky130A contacts on gate poly outside npc and inside VPP capacitors, via 2 under a MIM capacitor; sg13g2 vias on Metal5 inside a slit or resistor marker"
  },
  {
   "property": "C124",
   "status": "partial",
   "theorems": [
    "Verif.LvsRules.conductor_whole_partial",
    "Verif.LvsRules.pins_join_partial",
    "Verif.LvsRules.texts_join_partial",
    "Verif.LvsRules.conductors_apart",
    "Verif.LvsRules.text_lost",
    "Verif.LvsRules.conductor_ex",
    "Verif.LvsRules.texts_ex"
   ],
   "note": "proved except at the listed seams, where the scripts cut the conductor (each with a layout): sky130A VPP and MIM capacitors, sg13g2 Metal5 inside a marker; pins on the MIM plates of sky130A and texts on gate poly and local interconnect of its VPP capacitors are not connected, texts on Metal5 of sg13g2 not inside a marker"
  },
  {
   "property": "C125",
   "status": "partial",
   "theorems": [
    "Verif.LvsRules.resistor_separates_partial",
    "Verif.LvsRules.metal5_resistor_shorts",
    "Verif.LvsRules.resistor_ex"
   ],
   "note": "proved for gate poly and all metals of sky130A and all metals of sg13g2 but Metal5, for which the script shorts every resistor (metal5_resistor_shorts)"
  },
  {
   "property": "C126",
   "status": "partial",
   "theorems": [
    "Verif.LvsRules.joins_through_cuts_partial",
    "Verif.LvsRules.sides_apart_partial",
    "Verif.LvsRules.crossing_apart_partial",
    "Verif.LvsRules.parts_of_technology",
    "Verif.LvsRules.cuts_of_technology",
    "Verif.LvsRules.inductor_pin_shorts",
    "Verif.LvsRules.mim_plate_shorts",
    "Verif.LvsRules.crossing_ex"
   ],
   "note": "proved for sky130A, and for sg13g2 for layouts without pins of inductors in which Metal5 encloses the enlarged lower plates of MIM capacitors; otherwise the sg13g2 script joins TopMetal1 with TopMetal2 at a pin of an inductor (inductor_pin_shorts) and a Metal5 wire with the plate of a MIM capacitor beside it (mim_plate_shorts); the silicon and the layers of single devices count as one conductor"
  },
  {
   "property": "C127",
   "status": "proved",
   "theorems": [
    "Verif.LvsRules.mim_plates_apart",
    "Verif.LvsRules.mim_top_joined",
    "Verif.LvsRules.mim_ex"
   ],
   "note": "for sky130A, layouts without vertical parallel plate capacitors, inside of which a via joins the two metals"
  },
  {
   "property": "C128",
   "status": "partial",
   "theorems": [
    "Verif.LvsRules.drawn_extracted_partial",
    "Verif.LvsRules.extracted_once",
    "Verif.LvsRules.topvia1_extracted",
    "Verif.LvsRules.metal5_differs",
    "Verif.LvsRules.extracted_ex"
   ],
   "note": "For every layout: the layers of the LVS result that KPEX extracts for a drawn layer have a shape exactly where the specification table Shown says, and never two of them at one place. Missing because the script does otherwise: on sg13g2 Metal5, fillers are not extracted and slits and resistors are (metal5_differs)."
  },
  {
   "property": "C129",
   "status": "partial",
   "theorems": [
    "Verif.LvsRules.licon_extracted_partial",
    "Verif.LvsRules.cont_extracted_partial",
    "Verif.LvsRules.tap_contacts_lost",
    "Verif.LvsRules.contact_twice",
    "Verif.LvsRules.contact_ex"
   ],
   "note": "Which contacts are extracted is stated exactly. Missing because the scripts do otherwise: contacts on taps are in no extracted layer (tap_contacts_lost), and a poly contact inside a VPP capacitor is in two (contact_twice)."
  },
  {
   "property": "C130",
   "status": "proved",
   "theorems": [
    "Verif.Decks.lvs_keeps",
    "Verif.Decks.lvs_keeps_ex",
    "Verif.Decks.sg_letter_case",
    "Verif.Decks.sky_letter_case"
   ],
   "note": "KLayout's handling of options `-rd name=value` is part of the model."
  },
  {
   "property": "C131",
   "status": "proved",
   "theorems": [
    "Verif.Decks.schematic_read",
    "Verif.Decks.pins_unique",
    "Verif.Decks.third_net_lost",
    "Verif.Decks.tap_bulk_fails",
    "Verif.Decks.schematic_ex"
   ],
   "note": "From the elements that KLayout parses on; elements need a net for each pin, and the theorems about what happens otherwise are included."
  },
  {
   "property": "C132",
   "status": "proved",
   "theorems": [
    "Verif.Decks.values_read",
    "Verif.Decks.value_unique",
    "Verif.Decks.values_ex"
   ],
   "note": "Numbers are exact."
  },
  {
   "property": "C133",
   "status": "partial",
   "theorems": [
    "Verif.Decks.written_in_order_partial",
    "Verif.Decks.transistors_written_partial",
    "Verif.Decks.models_sorted",
    "Verif.Decks.out_of_order",
    "Verif.Decks.without_letter",
    "Verif.Decks.units_lost",
    "Verif.Decks.written_ex"
   ],
   "note": "Proved for bipolar transistors, antenna diodes, poly resistors, MIM capacitors and inductor3, and for MOS transistors up to source and drain. The code violates it for the other devices, and for the unit of lengths; both are proved."
  },
  {
   "property": "C134",
   "status": "partial",
   "theorems": [
    "Verif.Decks.mim_combined",
    "Verif.Decks.diode_combined",
    "Verif.Decks.bjt_combined",
    "Verif.Decks.combined_close",
    "Verif.Decks.refused_kept",
    "Verif.Decks.res_parallel",
    "Verif.Decks.res_series_partial",
    "Verif.Decks.refused_moved",
    "Verif.Decks.combined_ex",
    "Verif.Decks.devices_ex"
   ],
   "note": "Two resistors in series that are not combined are nevertheless rewired (refused_moved); all else is proved for one call of a combiner, with the sizes equal (they may differ by less than 1e-9, combined_close)."
  },
  {
   "property": "C135",
   "status": "proved",
   "theorems": [
    "Verif.LvsRules.fet_drawn_sky",
    "Verif.LvsRules.fet_drawn_sg",
    "Verif.LvsRules.fet_found_sky",
    "Verif.LvsRules.fet_found_sg",
    "Verif.LvsRules.one_fet_sky",
    "Verif.LvsRules.one_fet_sg",
    "Verif.LvsRules.fets_ex"
   ],
   "note": "The table of drawings (Sky130A.fets, Sg13g2.fets) is stated in layer and datatype numbers. KLayout's extractors, which turn the gates into devices, are not modelled."
  },
  {
   "property": "C136",
   "status": "partial",
   "theorems": [
    "Verif.LvsRules.p_source_sky",
    "Verif.LvsRules.n_source_sky",
    "Verif.LvsRules.gate_sky",
    "Verif.LvsRules.p_bulk_sky",
    "Verif.LvsRules.p_source_sg",
    "Verif.LvsRules.n_source_sg",
    "Verif.LvsRules.gate_sg",
    "Verif.LvsRules.p_bulk_sg",
    "Verif.LvsRules.n_bulk_sg",
    "Verif.LvsRules.source_beside_gates",
    "Verif.LvsRules.pdiode_sky",
    "Verif.LvsRules.ndiode_sky_partial",
    "Verif.LvsRules.ndiode_reversed",
    "Verif.LvsRules.diodes_sg",
    "Verif.LvsRules.terminals_reached",
    "Verif.LvsRules.terminals_some",
    "Verif.LvsRules.vpp_bulk_alone",
    "Verif.LvsRules.vpp_bulk_used",
    "Verif.LvsRules.terminals_ex"
   ],
   "note": "Three diodes of sky130A are reversed (ndiode_reversed) and the bulk of VPP capacitors is joined with no wire (vpp_bulk_alone). The anode of the remaining diode to n diffusion is a hole of a tap ring, which is not modelled place by place. Bipolar transistors: only that their terminals are on connected layers; resistors and MIM capacitors: C139."
  },
  {
   "property": "C137",
   "status": "partial",
   "theorems": [
    "Verif.Decks.words_kept_partial",
    "Verif.Decks.nets_kept_partial",
    "Verif.Decks.bulk_as_model",
    "Verif.Decks.brace_lost",
    "Verif.Decks.merged_iff",
    "Verif.Decks.nets_merged",
    "Verif.Decks.lines_ex"
   ],
   "note": "Kept for names without brackets, dollar signs and slashes; names that differ only in these are merged (merged_iff), a resistor with a bulk net loses its model (bulk_as_model), and values of resistors and capacitors that do not end with a letter, digit or underscore lose their end (brace_lost)."
  },
  {
   "property": "C138",
   "status": "partial",
   "theorems": [
    "Verif.Decks.sky_written_partial",
    "Verif.Decks.sky_params",
    "Verif.Decks.sky_vpp_back",
    "Verif.Decks.sky_fuses",
    "Verif.Decks.sky_vpp_open",
    "Verif.Decks.sky_netlist_ex"
   ],
   "note": "Holds for all devices but fuses, whose lines are no elements (sky_fuses); a capacitor between fingers with two nets is read with an open terminal (sky_vpp_open). Parameters of capacitors between fingers are not written. The terminals and parameters of KLayout's device classes are taken from its documentation."
  },
  {
   "property": "C139",
   "status": "partial",
   "theorems": [
    "Verif.LvsRules.resistor_sky",
    "Verif.LvsRules.resistors_all_sky",
    "Verif.LvsRules.iso_sky",
    "Verif.LvsRules.diffusion_resistor_sky",
    "Verif.LvsRules.poly_resistor_sky",
    "Verif.LvsRules.marked_sky_partial",
    "Verif.LvsRules.resistor_sg",
    "Verif.LvsRules.marked_sg",
    "Verif.LvsRules.poly_resistor_sg",
    "Verif.LvsRules.poly_ends_sg",
    "Verif.LvsRules.mim_sky",
    "Verif.LvsRules.mim_found_sky",
    "Verif.LvsRules.mim_sg",
    "Verif.LvsRules.fuse_open_sky",
    "Verif.LvsRules.poly_open_sky",
    "Verif.LvsRules.poly_open_sg",
    "Verif.LvsRules.rsil_off_poly",
    "Verif.LvsRules.passives_ex",
    "Verif.LvsRules.passives_ex_sg"
   ],
   "note": "Violated: fuses of met2 and met3 (fuse_open_sky), poly in rpm or urpm without psdm (poly_open_sky) and poly of sg13g2 without extblock (poly_open_sg) are cut out of the wire without a device; a poly resistor of sg13g2 can lie outside of poly (rsil_off_poly). Which width a poly resistor of sky130A has is the subject of C144; the bottom plates of sg13g2, which are sized, are that of C142."
  },
  {
   "property": "C140",
   "status": "partial",
   "theorems": [
    "Verif.Decks.res_straight_partial",
    "Verif.Decks.res_upright_partial",
    "Verif.Decks.res_bend_partial",
    "Verif.Decks.mim_rect_partial",
    "Verif.Decks.varicap_inside_partial",
    "Verif.Decks.res_overhang",
    "Verif.Decks.res_parallel_ex",
    "Verif.Decks.mim_notch",
    "Verif.Decks.mim_cross",
    "Verif.Decks.varicap_crossing",
    "Verif.Decks.measure_ex",
    "Verif.Decks.ind_diameter_partial",
    "Verif.Decks.ind_opposite",
    "Verif.Decks.ind_no_space",
    "Verif.Decks.ind_ex"
   ],
   "note": "Proved for straight resistors, resistors with one bend, rectangular MIM capacitors, varactors with the gate inside of the active area, and inductors with all pins on the lower side, given the width, the space and the number of turns. Violated: inductors with pins on opposite sides (ind_opposite) or without edges that face each other (ind_no_space), a marker wider than the poly (res_overhang), resistors of different width between the same ports (res_parallel_ex), capacitors in the shape of an L (mim_notch) or of a cross (mim_cross), varactors whose gate crosses the active area (varicap_crossing). Resistors with more bends are not treated."
  },
  {
   "property": "C141",
   "status": "partial",
   "theorems": [
    "Verif.Decks.terminals_ports_partial",
    "Verif.Decks.resistor_alone_partial",
    "Verif.Decks.cluster_ports_partial",
    "Verif.Decks.ports_wrong",
    "Verif.Decks.series_lost",
    "Verif.Decks.terminal_cut",
    "Verif.Decks.terminal_cut_ex",
    "Verif.Decks.touching_ports",
    "Verif.Decks.measure_ex",
    "Verif.Decks.alone_ex"
   ],
   "note": "Proved for rectangular ports that do not touch each other and clusters with one marker. Violated: resistors in series with a common piece of poly are lost (series_lost), of a port with more than four corners only four are kept (terminal_cut), and ports that touch each other end the extraction with an exception (touching_ports)."
  },
  {
   "property": "C142",
   "status": "partial",
   "theorems": [
    "Verif.Decks.cmim_extracted_partial",
    "Verif.Decks.mim_plates",
    "Verif.Decks.mim_count",
    "Verif.Decks.rfmim_open",
    "Verif.Decks.cmim_ex"
   ],
   "note": "Exactly the capacitors with more than 1.2 um to all others are extracted; the others are lost, because their enlarged lower plates are merged (cmim_extracted_partial). An rfcmim without substrate marker has open terminals (rfmim_open). Capacitors are rectangles on Metal5 under TopMetal1."
  },
  {
   "property": "C143",
   "status": "proved",
   "theorems": [
    "Verif.Decks.label_recognised",
    "Verif.Decks.label_ex"
   ],
   "note": "For all patterns without line breaks, tabs and form feeds. KLayout's reading of patterns is modelled as far as the results of the function need it."
  },
  {
   "property": "C144",
   "status": "partial",
   "theorems": [
    "Verif.Decks.models_edges",
    "Verif.Decks.models_straight",
    "Verif.Decks.models_right_partial",
    "Verif.Decks.models_twice",
    "Verif.Decks.models_none",
    "Verif.Decks.models_ex"
   ],
   "note": "Proved: a straight resistor gets the models for its width and those for its length, so it is one device of the right model if its length is not the width of another model. Violated: if the length is the width of another model, it is two devices (models_twice); if its width is that of no model, it is no device (models_none) or gets the model for its length (models_ex). For bodies with horizontal and vertical edges that touch no other one; the two kinds of resistors have the same limits and share the definition."
  },
  {
   "property": "C145",
   "status": "partial",
   "theorems": [
    "Verif.Decks.inductor2_extracted",
    "Verif.Decks.inductor3_extracted_partial",
    "Verif.Decks.inductor3_without_A",
    "Verif.Decks.inductor2_swapped",
    "Verif.Decks.inductors_ex"
   ],
   "note": "Which inductors are extracted is exact for both kinds. Violated: inductor3 does not need a pin LA, because the script asks for LB twice (inductor3_without_A), and the terminals are ordered by position and not by label (inductor2_swapped). For one marker apart from others with one winding, whose pins are rectangles with one label each; the terminal of the substrate is not modelled."
  },
  {
   "property": "C146",
   "status": "partial",
   "theorems": [
    "Verif.Decks.npn13G2_emitter",
    "Verif.Decks.npn13G2l_emitter_partial",
    "Verif.Decks.npn13G2v_emitter_partial",
    "Verif.Decks.longest_lost",
    "Verif.Decks.sky_npn_1x1_partial",
    "Verif.Decks.sky_npn_1x2_partial",
    "Verif.Decks.sky_pnp_0p68_partial",
    "Verif.Decks.sky_pnp_3p40_partial",
    "Verif.Decks.sky_one_model",
    "Verif.Decks.sky_oblong",
    "Verif.Decks.emitters_ex"
   ],
   "note": "sg13g2 is exact; violated: the longest emitters of npn13G2l and npn13G2v, 2.5 um and 5 um, are not selected, because KLayout excludes the upper limit (longest_lost). sky130A: emitters of the right size get their model and no other; violated: some with one side outside of the tolerance get it too (sky_oblong). For emitters that touch no other one and no poly; the other terminals are not modelled here."
  },
  {
   "property": "C147",
   "status": "partial",
   "theorems": [
    "Verif.Decks.Vpp.vpp_one_model_partial",
    "Verif.Decks.Vpp.selected_pairs",
    "Verif.Decks.Vpp.vpp_all_used",
    "Verif.Decks.Vpp.vpp_one_side",
    "Verif.Decks.Vpp.vpp_twice",
    "Verif.Decks.Vpp.vpp_ex"
   ],
   "note": "Rectangular markers that touch no other marker. At most one model is false for four pairs of selections, which are listed and occur."
  },
  {
   "property": "C148",
   "status": "partial",
   "theorems": [
    "Verif.Decks.Vpp.vpp_combs_partial",
    "Verif.Decks.Vpp.vpp_two_pieces",
    "Verif.Decks.Vpp.vpp_device_iff",
    "Verif.Decks.Vpp.vpp_dummy_first",
    "Verif.Decks.Vpp.nhv_shorted",
    "Verif.Decks.Vpp.vpp_plates_ex"
   ],
   "note": "Proved if the first polygon of the conductor is a comb. Violated otherwise: a piece that comes first takes the place of a comb (vpp_dummy_first); and the model of 11.3 um by 11.8 um takes the first polygons of met2 and met1, which can be one comb (nhv_shorted)."
  },
  {
   "property": "C149",
   "status": "partial",
   "theorems": [
    "Verif.Decks.HvNpn.hv_npn_exact_partial",
    "Verif.Decks.HvNpn.hv_npn_emitters",
    "Verif.Decks.HvNpn.hv_npn_outside",
    "Verif.Decks.HvNpn.hv_npn_shared",
    "Verif.Decks.HvNpn.hv_npn_ex"
   ],
   "note": "Proved for transistors with a collector of their own, whose boxes are apart. Violated for n transistors with a common collector, which are n * n devices: each base is combined with each emitter (hv_npn_shared)."
  },
  {
   "property": "C150",
   "status": "partial",
   "theorems": [
    "Verif.Decks.HvNpn.nodes_own_partial",
    "Verif.Decks.HvNpn.hv_npn_chip_partial",
    "Verif.Decks.HvNpn.neighbour_selected",
    "Verif.Decks.HvNpn.nodes_ex"
   ],
   "note": "Proved for transistors whose collectors are apart. Violated for collectors that touch: the neighbour is selected for both models (neighbour_selected)."
  },
  {
   "property": "C151",
   "status": "partial",
   "theorems": [
    "Verif.Decks.HvNpn.esd_exact_partial",
    "Verif.Decks.HvNpn.esd_lost",
    "Verif.Decks.HvNpn.esd_shared_ring",
    "Verif.Decks.HvNpn.esd_ex"
   ],
   "note": "Proved for diodes with a collector of their own, whose boxes are apart. Violated for two diodes of the same voltage in a common collector, which are both lost (esd_shared_ring)."
  },
  {
   "property": "C152",
   "status": "partial",
   "theorems": [
    "Verif.Decks.clamp_one_partial",
    "Verif.Decks.clamp_taps",
    "Verif.Decks.clamp_both",
    "Verif.Decks.clamps_ex"
   ],
   "note": "Proved for clamps with one label and one tap. Violated otherwise: a clamp is as many devices as it has taps (clamp_taps), and with both labels it is both models (clamp_both)."
  },
  {
   "property": "C153",
   "status": "partial",
   "theorems": [
    "Verif.Decks.Taps.tap_exact_partial",
    "Verif.Decks.Taps.tap_rectangles",
    "Verif.Decks.Taps.tap_too_large",
    "Verif.Decks.Taps.tap_shorts",
    "Verif.Decks.Taps.taps_ex",
    "Verif.Decks.Taps.tap_device_partial",
    "Verif.Decks.Taps.tap_lost",
    "Verif.Decks.Taps.tap_device_ex"
   ],
   "note": "Exact if the bounding box of each tap holds only taps and excluded layers, as for rectangular taps. Violated in all other cases: the script takes the bounding box, so the area is too large (tap_too_large), and the contacts of devices inside a guard ring are joined to it (tap_shorts); a ring around a place without well is no device (tap_lost)."
  }
 ]
}
