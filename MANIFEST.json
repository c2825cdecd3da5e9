{
 "claims": [
  {
   "property": "C01",
   "status": "proved",
   "theorems": [
    "GpsGen.C01.newTrack_polyline",
    "GpsGen.C01.restoreTrack_polyline",
    "GpsGen.C01.newTrack_contiguous"
   ],
   "note": "Any number type, any point list."
  },
  {
   "property": "C02",
   "status": "proved",
   "theorems": [
    "GpsGen.C02.track_distance_eq_sum",
    "GpsGen.C02.restored_distance_eq_sum",
    "GpsGen.C02.route_distance_eq_sum",
    "GpsGen.C02.restored_route_distance_eq_sum",
    "GpsGen.C02.route_distance_real",
    "GpsGen.C02.track_distance_real"
   ],
   "note": "Any number type with left-to-right summation; at exact reals it is the mathematical sum."
  },
  {
   "property": "C07",
   "status": "partial",
   "theorems": [
    "GpsGen.C07.never_panics_partial",
    "GpsGen.C07.never_panics_fails"
   ],
   "note": "Full claim is false: DestinationTo into the third of three routes makes the route index invalid. Proved for all histories that call DestinationTo only while at most two routes are held."
  },
  {
   "property": "C08",
   "status": "proved",
   "theorems": [
    "GpsGen.C08.nextLocation_terminates",
    "GpsGen.C08.budget_irrelevant"
   ],
   "note": "Any number type, any navigator state."
  },
  {
   "property": "C03",
   "status": "partial",
   "theorems": [
    "GpsGen.C03.distance_eq_sum_partial",
    "GpsGen.C03.resync_partial",
    "GpsGen.C03.inSync_real",
    "GpsGen.C03.stale_after_removeTrack",
    "GpsGen.C03.stale_after_addTrack"
   ],
   "note": "Full claim is false: changing the tracks of a held route leaves the total stale. Proved for histories without such calls, and that the next recomputation repairs it."
  },
  {
   "property": "C09",
   "status": "proved",
   "theorems": [
    "GpsGen.C09.position_within_segment"
   ],
   "note": "Any number type, any navigator state."
  },
  {
   "property": "C11",
   "status": "proved",
   "theorems": [
    "GpsGen.C11.visits_in_order"
   ],
   "note": ""
  },
  {
   "property": "C13",
   "status": "proved",
   "theorems": [
    "GpsGen.C13.offline_freezes",
    "GpsGen.C13.offline_exact",
    "GpsGen.C13.offline_no_routes"
   ],
   "note": ""
  },
  {
   "property": "C14",
   "status": "proved",
   "theorems": [
    "GpsGen.C14.skip_never_offline"
   ],
   "note": ""
  },
  {
   "property": "C15",
   "status": "partial",
   "theorems": [
    "GpsGen.C15.bounds_partial",
    "GpsGen.C15.duration_range",
    "GpsGen.C15.bounds_zero_fails"
   ],
   "note": "Full claim is false for the configuration 0..0, which is silently replaced by 0..10. Proved for all other accepted configurations."
  },
  {
   "property": "C16",
   "status": "partial",
   "theorems": [
    "GpsGen.C16.isFinish_iff_lap_partial",
    "GpsGen.C16.isFinish_once",
    "GpsGen.C16.lap_reported",
    "GpsGen.C16.spurious_finish"
   ],
   "note": "Full claim is false: IsFinish recognises a lap by the value 0.1 of the current distance, which an ordinary step can produce."
  },
  {
   "property": "C17",
   "status": "proved",
   "theorems": [
    "GpsGen.C17.moveToSegment_spec",
    "GpsGen.C17.moveToRoute_spec",
    "GpsGen.C17.neighbour_spec",
    "GpsGen.C17.moveToRouteByID_spec",
    "GpsGen.C17.moveToTrackByID_spec"
   ],
   "note": ""
  },
  {
   "property": "C04",
   "status": "partial",
   "theorems": [
    "GpsGen.C04.isClosed_iff_same_meridian_partial",
    "GpsGen.C04.closed_of_returns_partial",
    "GpsGen.C04.closed_iff_same_latitude_partial",
    "GpsGen.C04.latitude_ignored"
   ],
   "note": "Full claim is false: IsClosed compares longitudes only, so a track that ends elsewhere on the same meridian counts as closed."
  },
  {
   "property": "C05",
   "status": "partial",
   "theorems": [
    "GpsGen.C05.routes_refine_partial",
    "GpsGen.C05.ids_distinct",
    "GpsGen.C05.lookups_agree",
    "GpsGen.C05.long_id_not_removed"
   ],
   "note": "Full claim is false for identifiers that are empty or longer than 36 bytes: they can be added but not removed. Proved for histories whose removals use identifiers of valid length."
  },
  {
   "property": "C06",
   "status": "partial",
   "theorems": [
    "GpsGen.C06.route_found_and_removed_partial",
    "GpsGen.C06.track_found_and_removed_partial",
    "GpsGen.C06.bad_id_never_found",
    "GpsGen.C06.bad_id_held",
    "GpsGen.C06.duplicate_track_still_found"
   ],
   "note": "Full claim is false for identifiers of invalid length and for duplicate track identifiers. Proved for valid lengths and distinct identifiers."
  },
  {
   "property": "C10",
   "status": "partial",
   "theorems": [
    "GpsGen.C10.counters_bounded_partial",
    "GpsGen.C10.backward_move_exceeds"
   ],
   "note": "Full claim is false: a backward move keeps the track counter, which can then exceed the track length. Proved for histories without explicit moves and jumps."
  },
  {
   "property": "C12",
   "status": "proved",
   "theorems": [
    "GpsGen.C12.trip_finishes",
    "GpsGen.C12.trip_finishes_reachable",
    "GpsGen.C12.Double.trip_finishes",
    "GpsGen.C12.Double.trip_finishes_large",
    "GpsGen.C12.Double.claim_fails"
   ],
   "note": "Exact arithmetic, and IEEE doubles where the advance is that of the distance counter. With a fixed tick x speed instead of an advance it fails in doubles (claim_fails); there it holds for steps of at least 2^-51 of the longest segment."
  },
  {
   "property": "C18",
   "status": "partial",
   "theorems": [
    "GpsGen.C18.destinationTo_exact",
    "GpsGen.C18.destinationTo_partial",
    "GpsGen.C18.destinationTo_distance",
    "GpsGen.C18.destinationTo_short",
    "GpsGen.C18.third_route_wrong",
    "GpsGen.C18.third_route_witness",
    "GpsGen.C18.beyond_end_at_start",
    "GpsGen.C18.beyond_end_fails"
   ],
   "note": "Full claim is false: the route and track index are the sum of the loop counters, wrong from the third route or track on, and a jump beyond the end lands at the start of a segment. Proved for up to two routes of up to two tracks and x below the total."
  },
  {
   "property": "C19",
   "status": "proved",
   "theorems": [
    "GpsGen.C19.change_is_visible",
    "GpsGen.C19.change_is_never_undone",
    "GpsGen.C19.same_version_same_structure"
   ],
   "note": "Any number type. Counters are unbounded integers."
  },
  {
   "property": "C20",
   "status": "proved",
   "theorems": [
    "GpsGen.C20.next_mirrors",
    "GpsGen.C20.update_mirrors",
    "GpsGen.C20.route_ops_mirror",
    "GpsGen.C20.props_not_republished"
   ],
   "note": "Ids, distances, segment counts and colours are mirrored. props_not_republished shows the limit: property maps are not part of the claim and are not republished."
  },
  {
   "property": "C21",
   "status": "partial",
   "theorems": [
    "GpsGen.C21.segment_survives",
    "GpsGen.C21.track_survives_partial",
    "GpsGen.C21.route_survives_partial",
    "GpsGen.C21.routes_survive_partial",
    "GpsGen.C21.route_comes_back",
    "GpsGen.C21.int_property_changes",
    "GpsGen.C21.unmarshalable_property_drops_all"
   ],
   "note": "Full claim is false for properties: integers come back as floats and one value JSON cannot represent drops the whole map. Proved for properties JSON represents faithfully."
  },
  {
   "property": "C22",
   "status": "partial",
   "theorems": [
    "GpsGen.C22.navigator_survives_partial",
    "GpsGen.C22.navigator_evolves_alike_partial",
    "GpsGen.C22.alike_perform",
    "GpsGen.C22.alike_answers",
    "GpsGen.C22.alike_update",
    "GpsGen.C22.int_property_lost"
   ],
   "note": "Full claim is false for properties JSON cannot represent (as in C21). Proved for histories that store only representable properties."
  },
  {
   "property": "C26",
   "status": "proved",
   "theorems": [
    "GpsGen.C26.sensors_refine",
    "GpsGen.C26.sensors_mirrored",
    "GpsGen.C26.refreshing_ops_mirror",
    "GpsGen.C26.lookups_agree",
    "GpsGen.C26.removeSensor_spec"
   ],
   "note": "Any number type. Removal of the empty id is refused."
  },
  {
   "property": "C27",
   "status": "partial",
   "theorems": [
    "GpsGen.C27.speed_within",
    "GpsGen.C27.tick_within",
    "GpsGen.C27.constant_speed",
    "GpsGen.C27.constant_value",
    "GpsGen.C27.Double.speed_within_partial",
    "GpsGen.C27.Double.tick_within_partial",
    "GpsGen.C27.Double.above_maximum",
    "GpsGen.C27.Double.below_minimum",
    "GpsGen.C27.Double.claim_fails"
   ],
   "note": "Full claim proved in exact arithmetic (ticks non-negative, routes of positive length; before the first effective tick the published speed is zero). In IEEE doubles it fails by a unit in the last place; proved there: finite, within 2^-40 relative of the bounds, constant speed exact, for all histories whose effective ticks find a positive finite average time."
  },
  {
   "property": "C28",
   "status": "partial",
   "theorems": [
    "GpsGen.C28.sensor_value",
    "GpsGen.C28.sensor_value_ordered",
    "GpsGen.C28.sensor_constant",
    "GpsGen.C28.device_values",
    "GpsGen.C28.device_bounds",
    "GpsGen.C28.Double.sensor_value_partial",
    "GpsGen.C28.Double.above_maximum",
    "GpsGen.C28.Double.below_minimum",
    "GpsGen.C28.Double.end_inexact",
    "GpsGen.C28.Double.overflow_nan",
    "GpsGen.C28.Double.claim_fails"
   ],
   "note": "Full claim proved in exact arithmetic (for min > max the value lies between the two). In IEEE doubles it fails by a unit in the last place and gives NaN when max - min overflows; proved there for bounds up to 2^399: finite, within 2^-40 relative of the bounds, start value exact."
  },
  {
   "property": "C29",
   "status": "proved",
   "theorems": [
    "GpsGen.C29.eval_depends_on_control",
    "GpsGen.C29.point_preserves",
    "GpsGen.C29.evals_independent",
    "GpsGen.C29.eval_after_evals",
    "GpsGen.C29.evals_order",
    "GpsGen.C29.eval_after_snapshot"
   ],
   "note": "Any number type."
  },
  {
   "property": "C30",
   "status": "proved",
   "theorems": [
    "GpsGen.C30.parameter_value",
    "GpsGen.C30.parameter_unit",
    "GpsGen.C30.average_time_positive",
    "GpsGen.C27.Double.parameter_unit"
   ],
   "note": "Exact arithmetic; ticks non-negative, routes of positive length. In IEEE doubles for every device whose average time is positive and finite."
  },
  {
   "property": "C31",
   "status": "partial",
   "theorems": [
    "GpsGen.C31.bounds_partial",
    "GpsGen.C31.next_antitone_partial",
    "GpsGen.C31.low_iff_partial",
    "GpsGen.C31.reset_full_partial",
    "GpsGen.C31.maximum_ignored",
    "GpsGen.C31.zero_chargeTime",
    "GpsGen.C31.claim_fails",
    "GpsGen.C31.Double.bounds_partial",
    "GpsGen.C31.Double.next_antitone",
    "GpsGen.C31.Double.reset_full",
    "GpsGen.C31.Double.low_iff",
    "GpsGen.C31.Double.low_after_chargeTime"
   ],
   "note": "Full claim is false: the maximum is ignored and charge time zero gives NaN. Proved for maximum 100 and any other accepted charge time, in exact arithmetic with NaN and infinities and in IEEE doubles with rounding."
  },
  {
   "property": "C32",
   "status": "partial",
   "theorems": [
    "GpsGen.C32.model_iff",
    "GpsGen.C32.name_iff",
    "GpsGen.C32.sensor_iff",
    "GpsGen.C32.sensor_keeps",
    "GpsGen.C32.restore_sensor",
    "GpsGen.C32.speed_iff_partial",
    "GpsGen.C32.battery_iff_partial",
    "GpsGen.C32.navigator_iff_partial",
    "GpsGen.C32.device_iff",
    "GpsGen.C32.speed_beyond_limit",
    "GpsGen.C32.speed_nan",
    "GpsGen.C32.speed_claim_fails",
    "GpsGen.C32.battery_zero_chargeTime",
    "GpsGen.C32.battery_negative",
    "GpsGen.C32.battery_nan",
    "GpsGen.C32.battery_claim_fails",
    "GpsGen.C32.navigator_negative",
    "GpsGen.C32.navigator_claim_fails"
   ],
   "note": "Full claim is false for NewSpeed, NewBattery and navigator.New (see DESIGN.md). Exact acceptance conditions proved for all numbers other than NaN."
  },
  {
   "property": "C33",
   "status": "proved",
   "theorems": [
    "GpsGen.C33.presets_created",
    "GpsGen.C33.presets_created_extended",
    "GpsGen.C33.Double.presets_created"
   ],
   "note": "Any number type that compares natural numbers up to 50000 correctly."
  },
  {
   "property": "C23",
   "status": "partial",
   "theorems": [
    "GpsGen.C23.device_survives_partial",
    "GpsGen.C23.device_evolves_alike_partial",
    "GpsGen.C23.pending_ticks_lost",
    "GpsGen.C23.static_speed_differs",
    "GpsGen.C23.stale_ids_differ"
   ],
   "note": "Full claim is false: pending ticks are not saved, a device with constant speed that never moved publishes speed zero while the decoded one publishes the constant, stale route ids are not saved. Proved for all histories without these three and with properties JSON can represent."
  },
  {
   "property": "C24",
   "status": "partial",
   "theorems": [
    "GpsGen.C24.decodeSensors_iff_partial",
    "GpsGen.C24.decodeRoutes_iff_partial",
    "GpsGen.C24.fromSnapshot_iff_partial",
    "GpsGen.C24.decodeTracker_iff_partial",
    "GpsGen.C24.snapshot_complete",
    "GpsGen.C24.encoded_decodes",
    "GpsGen.C24.empty_tracker_panics",
    "GpsGen.C24.bare_sensor_panics",
    "GpsGen.C24.bare_segment_panics",
    "GpsGen.C24.bad_index_panics",
    "GpsGen.C24.geojson_returns_partial",
    "GpsGen.C24.geometry_returns_iff",
    "GpsGen.C24.foreign_returns",
    "GpsGen.C24.encoded_returns",
    "GpsGen.C24.null_document_panics",
    "GpsGen.C24.null_feature_panics",
    "GpsGen.C24.missing_geometry_panics",
    "GpsGen.C24.missing_track_id_panics",
    "GpsGen.C24.short_line_panics"
   ],
   "note": "Full claim is false: absent sub-messages and bad indices panic. Proved: exactly which messages decode, and that every encoded device does. Input is the parsed message; for byte strings see C93 (bytes_partial) and C86."
  },
  {
   "property": "C25",
   "status": "partial",
   "theorems": [
    "GpsGen.C25.device_replaced_partial",
    "GpsGen.C25.device_replaced_with_sensors_partial",
    "GpsGen.C25.device_usable",
    "GpsGen.C25.navigator_replaced_partial",
    "GpsGen.C25.navigator_rest_replaced_partial",
    "GpsGen.C25.returns_same",
    "GpsGen.C25.nil_snapshot",
    "GpsGen.C25.old_sensors_survive",
    "GpsGen.C25.old_tick_survives",
    "GpsGen.C25.restored_navigator_unusable"
   ],
   "note": "Full claim is false: old sensors and pending ticks survive, and a navigator created to skip offline periods panics on going offline after restoring a snapshot that does not skip them. Proved for everything else."
  },
  {
   "property": "C34",
   "status": "partial",
   "theorems": [
    "GpsGen.C34.time_conserved_partial",
    "GpsGen.C34.nothing_pending",
    "GpsGen.C34.locked_call_counts_one",
    "GpsGen.C34.idle_call_loses_tick",
    "GpsGen.C34.counter_wraps",
    "GpsGen.C34.counter_conserved_partial",
    "GpsGen.C34.disturbed_call_lost",
    "GpsGen.C34.Double.time_conserved_whole_partial",
    "GpsGen.C34.Double.tenths_inexact",
    "GpsGen.C34.Double.second_lost"
   ],
   "note": "Full claim is false: a locked call counts one second whatever its tick, a device without routes loses the tick, the counter wraps, and a call between load and reset of the counter is lost. Proved without these four, in exact arithmetic and, for ticks of whole seconds up to 2^53 in total, in IEEE doubles; other ticks are not summed exactly."
  },
  {
   "property": "C35",
   "status": "partial",
   "theorems": [
    "GpsGen.C35.update_mirrors_partial",
    "GpsGen.C35.next_mirrors_partial",
    "GpsGen.C35.next_shows_partial",
    "GpsGen.C35.next_offline",
    "GpsGen.C35.stale_route_id",
    "GpsGen.C35.stale_witness"
   ],
   "note": "Full claim is false: route and track ids stay stale when there is no current route or track. Proved for everything else."
  },
  {
   "property": "C36",
   "status": "partial",
   "theorems": [
    "GpsGen.C36.attached_once_partial",
    "GpsGen.C36.attach_iff_partial",
    "GpsGen.C36.detach_ok_partial",
    "GpsGen.C36.restored_attached_twice",
    "GpsGen.C36.restored_never_attached"
   ],
   "note": "Full claim is false: restoring a snapshot overwrites the status, so an attached device can be attached again and a free one never. Proved for all histories without restores."
  },
  {
   "property": "C37",
   "status": "proved",
   "theorems": [
    "GpsGen.C37.lookup_iff",
    "GpsGen.C37.lookup_first",
    "GpsGen.C37.hasTracker_iff",
    "GpsGen.C37.lookups_agree",
    "GpsGen.C37.detach_removes",
    "GpsGen.C37.detach_absent",
    "GpsGen.C37.each_all",
    "GpsGen.C37.each_prefix",
    "GpsGen.C37.registry_refines",
    "GpsGen.C37.new_name",
    "GpsGen.C37.lookups_after_history",
    "GpsGen.C37.empty_id_differs"
   ],
   "note": "Generated ids are assumed non-empty; for the empty id HasTracker and Lookup differ."
  },
  {
   "property": "C38",
   "status": "proved",
   "theorems": [
    "GpsGen.C38.slices_tile",
    "GpsGen.C38.slices_bounds",
    "GpsGen.C38.slices_disjoint",
    "GpsGen.C38.slices_partition",
    "GpsGen.C38.slices_length",
    "GpsGen.C38.divided_nonempty",
    "GpsGen.C38.new_sizes"
   ],
   "note": "All worker counts, packet sizes and fill levels."
  },
  {
   "property": "C39",
   "status": "partial",
   "theorems": [
    "GpsGen.C39.delivered_once_partial",
    "GpsGen.C39.each_once",
    "GpsGen.C39.last_of_packet_lost"
   ],
   "note": "Full claim is false: the device in the last slot of a full packet is never delivered. Proved for every interleaving without attaching and detaching: exactly the other devices are delivered, once per tick; with fewer devices than packet slots that is all of them."
  },
  {
   "property": "C40",
   "status": "partial",
   "theorems": [
    "GpsGen.C40.close_stops_partial",
    "GpsGen.C40.close_terminates",
    "GpsGen.C40.hang",
    "GpsGen.C40.hang_keeps",
    "GpsGen.C40.hang_one_worker",
    "GpsGen.C40.leaked_worker"
   ],
   "note": "Full claim is false: with a divided packet, or one worker and a full packet, Run may never return after Close. Proved if all devices fit into one undivided packet."
  },
  {
   "property": "C41",
   "status": "proved",
   "theorems": [
    "GpsGen.C41.never_stuck",
    "GpsGen.C41.settles",
    "GpsGen.C41.quiescent_ticks"
   ],
   "note": "Every interleaving; callbacks return."
  },
  {
   "property": "C42",
   "status": "partial",
   "theorems": [
    "GpsGen.C42.holds_waiting",
    "GpsGen.C42.holds_frozen",
    "GpsGen.C42.delivered_current_partial",
    "GpsGen.C42.serialised_current",
    "GpsGen.C39.serialised_advanced",
    "GpsGen.C42.closed_delivers_nothing"
   ],
   "note": "Proved while the generator is open. After Close it is false: a worker may deliver a packet of cleared slots."
  },
  {
   "property": "C43",
   "status": "proved",
   "theorems": [
    "GpsGen.C43.calls_le_ticks",
    "GpsGen.C43.tick_announced",
    "GpsGen.C43.quiescent_announced",
    "GpsGen.C43.unannounced_steps"
   ],
   "note": "Every interleaving; callbacks return."
  },
  {
   "property": "C46",
   "status": "partial",
   "theorems": [
    "GpsGen.C46.distance_angle",
    "GpsGen.C46.symmetric",
    "GpsGen.C46.bounds",
    "GpsGen.C46.zero_iff",
    "GpsGen.C46.zero_iff_equal",
    "GpsGen.C46.longitude_shift",
    "GpsGen.C46.triangle",
    "GpsGen.C46.haversine_round",
    "GpsGen.C46.distance_round",
    "GpsGen.C46.haversine_range",
    "GpsGen.C46.normalize_range",
    "GpsGen.C46.Double.symmetric",
    "GpsGen.C46.Double.zero_same",
    "GpsGen.C46.Double.haversine_range_partial",
    "GpsGen.C46.Double.bounds_partial",
    "GpsGen.C46.Double.tiny_zero",
    "GpsGen.C46.Double.zero_claim_fails"
   ],
   "note": "Full claim proved in exact arithmetic. In IEEE doubles, for any mathematical library with the documented signs and ranges: exactly symmetric, zero for coinciding points, from zero to 4R if the haversine is at most 1; points at most 2^-600 degrees apart also have distance zero. That the haversine is at most 1 (up to the antipode) and the triangle inequality need the accuracy of the library: see C83."
  },
  {
   "property": "C47",
   "status": "partial",
   "theorems": [
    "GpsGen.C47.distance_requested",
    "GpsGen.C47.destination_requested_partial",
    "GpsGen.C47.lat_range",
    "GpsGen.C47.lon_range_partial",
    "GpsGen.C47.due_north",
    "GpsGen.C47.far_west"
   ],
   "note": "Exact arithmetic. Proved for every valid start coordinate; false for start longitudes below -360, which are not normalised (far_west)."
  },
  {
   "property": "C48",
   "status": "proved",
   "theorems": [
    "GpsGen.C48.bearing_range",
    "GpsGen.C48.reaches_end",
    "GpsGen.C48.stays_at_start",
    "GpsGen.C48.segment_walk"
   ],
   "note": "Exact arithmetic; antipodal points included."
  },
  {
   "property": "C49",
   "status": "partial",
   "theorems": [
    "GpsGen.C49.dms_exact",
    "GpsGen.C49.location_exact",
    "GpsGen.C49.zero_direction",
    "GpsGen.C49.Double.dms_partial",
    "GpsGen.C49.Double.location_partial",
    "GpsGen.C49.Double.seconds_negative",
    "GpsGen.C49.Double.claim_fails"
   ],
   "note": "Full claim proved in exact arithmetic; zero gets the letters S and W. In IEEE doubles the seconds can be negative; proved there: degrees and minutes in range, seconds within 2^-39 of the range, sum within 3*2^-53 degrees."
  },
  {
   "property": "C50",
   "status": "partial",
   "theorems": [
    "GpsGen.C50.latLon_valid",
    "GpsGen.C50.country_point",
    "GpsGen.C50.country_name",
    "GpsGen.C50.byCountry_box",
    "GpsGen.C50.center_inside",
    "GpsGen.C50.string_over_charset",
    "GpsGen.C50.string_valid",
    "GpsGen.C50.polygon_closed_partial",
    "GpsGen.C50.polygon_zero",
    "GpsGen.C50.route_tracks",
    "GpsGen.C50.small_levels_alike",
    "GpsGen.C50.track_closed_partial",
    "GpsGen.C50.zero_draws_open",
    "GpsGen.C50.route_closed_partial",
    "GpsGen.C50.each_country",
    "GpsGen.C50.Double.latLon_valid",
    "GpsGen.C50.Double.byCountry_box",
    "GpsGen.C50.Double.country_point"
   ],
   "note": "Full claim is false: Polygon(0) panics, and a polygon whose draws are all zero consists of NaN, so its track is not closed. Proved for all other arguments and draws (coordinates in exact arithmetic and in IEEE doubles, where they are exactly in range for every draw below 1)."
  },
  {
   "property": "C51",
   "status": "proved",
   "theorems": [
    "GpsGen.C51.set_get",
    "GpsGen.C51.remove_get",
    "GpsGen.C51.merge_get",
    "GpsGen.C51.make_get",
    "GpsGen.C51.keys_kept",
    "GpsGen.C51.map_laws",
    "GpsGen.C51.string_iff",
    "GpsGen.C51.bool_iff",
    "GpsGen.C51.float_iff",
    "GpsGen.C51.int_iff"
   ],
   "note": "Any number type. Non-nil maps."
  },
  {
   "property": "C52",
   "status": "partial",
   "theorems": [
    "GpsGen.C52.varint_round",
    "GpsGen.C52.varint_length",
    "GpsGen.C52.snapshot_round",
    "GpsGen.C52.packet_round",
    "GpsGen.C52.sensors_round",
    "GpsGen.C52.routes_round",
    "GpsGen.C52.packet_injective",
    "GpsGen.C52.packet_any_order",
    "GpsGen.C52.snapshot_any_order",
    "GpsGen.C52.snapshot_extended",
    "GpsGen.C52.packetFromBytes_partial",
    "GpsGen.C52.packetFromBytes_zero",
    "GpsGen.C52.snapFromBytes_partial",
    "GpsGen.C52.tracker_bytes",
    "GpsGen.C52.binary_round",
    "GpsGen.C52.sensors_bytes",
    "GpsGen.C52.routes_bytes",
    "GpsGen.C52.packet_read",
    "GpsGen.C52.snap_read",
    "GpsGen.C52.packet_settles_partial",
    "GpsGen.C52.snap_settles_partial",
    "GpsGen.C52.sensors_settle_partial",
    "GpsGen.C52.routes_settle_partial",
    "GpsGen.C52.same_packet_iff",
    "GpsGen.C52.packet_does_not_settle"
   ],
   "note": "Marshal and Unmarshal round-trip every message with 64-bit integers. Partial because PacketFromBytes and UnmarshalBinary refuse the message with all fields at their default. Bytes from elsewhere, in any order and roundabout encoding, settle after one reading. The protobuf library is modelled from the wire format specification."
  },
  {
   "property": "C44",
   "status": "partial",
   "theorems": [
    "GpsGen.C44.routes_come_back",
    "GpsGen.C44.routes_survive_partial",
    "GpsGen.C44.encode_empty",
    "GpsGen.C44.second_track_takes_first_id",
    "GpsGen.C44.track_name_lost",
    "GpsGen.C44.empty_route_dropped",
    "GpsGen.C44.reserved_property_clobbers",
    "GpsGen.C44.unprintable_property_fails"
   ],
   "note": "Full claim is false. Proved: exactly what comes back, for any number of routes and tracks; the claim itself for routes of one unnamed track."
  },
  {
   "property": "C45",
   "status": "partial",
   "theorems": [
    "GpsGen.C45.routes_back",
    "GpsGen.C45.routes_come_back",
    "GpsGen.C45.routes_survive_partial",
    "GpsGen.C45.encode_empty",
    "GpsGen.C45.bool_stable",
    "GpsGen.C45.int64_stable",
    "GpsGen.C45.int_becomes_int64",
    "GpsGen.C45.str_stable_iff",
    "GpsGen.C45.parseInt64_iff",
    "GpsGen.C45.parseBool_iff",
    "GpsGen.C45.null_unstable",
    "GpsGen.C45.numeric_id_rejected",
    "GpsGen.C45.track_properties_lost",
    "GpsGen.C45.numeric_name_lost",
    "GpsGen.C45.reserved_property_clobbers",
    "GpsGen.C45.empty_route_dropped"
   ],
   "note": "Full claim is false. Proved: exactly what comes back, for any number of routes and tracks; the claim itself for tracks without properties and texts that do not look like numbers. XML text is the subject of C89, the ten decimals of coordinates of C88."
  },
  {
   "property": "C53",
   "status": "proved",
   "theorems": [
    "GpsGen.C53.decode_never_panics",
    "GpsGen.C53.mismatch_rejected"
   ],
   "note": "Any parsed document."
  },
  {
   "property": "C54",
   "status": "partial",
   "theorems": [
    "GpsGen.C54.device_never_panics_partial",
    "GpsGen.C54.device_never_panics_fails",
    "GpsGen.C54.live_safe"
   ],
   "note": "Full claim is false: after DestinationTo into the third of three routes Next, Update and getters panic. Proved for all histories that call DestinationTo only while at most two routes are held."
  },
  {
   "property": "C55",
   "status": "partial",
   "theorems": [
    "GpsGen.C55.step_counts",
    "GpsGen.C55.idle_counts",
    "GpsGen.C55.odometer_exact",
    "GpsGen.C55.advance_bounds_partial",
    "GpsGen.C55.reach_inRange",
    "GpsGen.C55.covers_step_fails",
    "GpsGen.C55.first_step_one_metre"
   ],
   "note": "Full claim is false: a step across a segment end covers the rest of the segment in addition, and the first step puts the device at 1 m. Proved: the odometers count exactly tick x speed (any number type), and bounds on the distance covered (exact arithmetic)."
  },
  {
   "property": "C56",
   "status": "partial",
   "theorems": [
    "GpsGen.C56.geojson_import",
    "GpsGen.C56.geojson_accepts",
    "GpsGen.C56.gpx_import",
    "GpsGen.C56.gpx_accepts",
    "GpsGen.C56.gpx_complete_partial",
    "GpsGen.C56.geojson_complete_partial",
    "GpsGen.C56.gpx_complete_fails",
    "GpsGen.C56.geojson_complete_fails"
   ],
   "note": "Full claim is false: GPX way points replace tracks and routes, tracks replace routes, holes of polygons are dropped, unused GPX lines can cause refusal. Proved: exactly which documents are accepted and what they give; that every line becomes a track without these mixtures. The text of documents is the subject of C86 and C89."
  },
  {
   "property": "C57",
   "status": "partial",
   "theorems": [
    "GpsGen.C57.read_only_partial",
    "GpsGen.C57.reads_agree_partial",
    "GpsGen.C57.isFinish_writes",
    "GpsGen.C57.finish_seen_by_all",
    "GpsGen.C57.finish_seen_once",
    "GpsGen.C57.finish_changes_readings",
    "GpsGen.C57.read_only_fails"
   ],
   "note": "Full claim is false: IsFinish clears the lap mark under the read lock. Proved for all other read-locked methods, in any order and number; for IsFinish what concurrent readers can see. Go's memory model is not modelled: reads and writes of the mark are taken as atomic."
  },
  {
   "property": "C58",
   "status": "partial",
   "theorems": [
    "GpsGen.C58.consistent_partial",
    "GpsGen.C58.still_snapshot",
    "GpsGen.C58.parts",
    "GpsGen.C58.returns_iff",
    "GpsGen.C58.decodes_iff_partial",
    "GpsGen.C58.torn_snapshot",
    "GpsGen.C58.added_sensor_panics",
    "GpsGen.C58.removed_sensor_undecodable"
   ],
   "note": "Full claim is false: most of Snapshot runs without the lock. Proved when what happens meanwhile does not change the snapshot; in general which parts belong to which moment, exactly when Snapshot panics and when its result decodes. The reading of each part is taken as atomic."
  },
  {
   "property": "C59",
   "status": "proved",
   "theorems": [
    "GpsGen.C59.run_attrs",
    "GpsGen.C59.step_attrs",
    "GpsGen.C59.id_constant",
    "GpsGen.C59.setModel_refuses",
    "GpsGen.C59.setColor_refuses",
    "GpsGen.C59.new_attrs",
    "GpsGen.C59.newModel_iff"
   ],
   "note": "Any number type. Colour parsing is the external library: its result is an argument."
  },
  {
   "property": "C60",
   "status": "partial",
   "theorems": [
    "GpsGen.C60.in_range",
    "GpsGen.C60.presets_in_range",
    "GpsGen.C60.new_ranges",
    "GpsGen.C60.life_held",
    "GpsGen.C60.step_elevation_frame",
    "GpsGen.C60.Double.in_range_partial",
    "GpsGen.C60.Double.presets_in_range_partial",
    "GpsGen.C60.Double.claim_fails",
    "GpsGen.C60.Double.rounded_up",
    "GpsGen.C31.Double.whole_seconds"
   ],
   "note": "Full claim proved in exact arithmetic (routes of positive length, non-negative ticks). In IEEE doubles it fails for the speed by a unit in the last place; proved there for the whole life, with positive finite average time at effective ticks: speed and elevation finite and within 2^-40 relative of their ranges, charge and offline ticks exact, charge time exact for whole seconds and otherwise at most one second too long (rounded_up). The charge is bounded by 100, not by the configured maximum, which the battery ignores (C31)."
  },
  {
   "property": "C61",
   "status": "partial",
   "theorems": [
    "GpsGen.C61.one_parameter",
    "GpsGen.C61.one_elapsed_time",
    "GpsGen.C61.trip_time",
    "GpsGen.C61.fraction_partial",
    "GpsGen.C61.parameter_unique",
    "GpsGen.C61.fraction_fails"
   ],
   "note": "Full claim is false: the tick is added to the duration twice before dividing by the trip time. Proved: one parameter and one elapsed time for everything, the trip time (any number type); the exact fraction used."
  },
  {
   "property": "C62",
   "status": "partial",
   "theorems": [
    "GpsGen.C62.battery_frame",
    "GpsGen.C62.drains",
    "GpsGen.C62.recharges",
    "GpsGen.C62.never_low",
    "GpsGen.C62.published_partial",
    "GpsGen.C62.stale_charge",
    "GpsGen.C62.low_iff"
   ],
   "note": "Full claim is false: the charge is not published while the device is offline. Proved: discharge, recharge with offline period, never low, publication by every Next that moves the device or ends a lap and by Update."
  },
  {
   "property": "C63",
   "status": "partial",
   "theorems": [
    "GpsGen.C63.next_lap",
    "GpsGen.C63.lap_iff",
    "GpsGen.C63.laps_partial",
    "GpsGen.C63.lap_unreported",
    "GpsGen.C63.reported_iff",
    "GpsGen.C63.never_reported"
   ],
   "note": "Full claim is false: IsFinish of the device never reports a lap. Proved: what a new lap does, that nothing else does it, exactly when it starts (battery not low, steps longer than 0.1 m); that IsFinish is never true in such histories."
  },
  {
   "property": "C64",
   "status": "partial",
   "theorems": [
    "GpsGen.C64.estimate_partial",
    "GpsGen.C64.estimate_frame",
    "GpsGen.C64.estimate_iff",
    "GpsGen.C64.estimate_fails",
    "GpsGen.C64.estimate_constant",
    "GpsGen.C64.zero_speed",
    "GpsGen.C64.update_infinite"
   ],
   "note": "Full claim is false: the estimate is that for the whole lap. Proved: this, the exact difference, and infinity or NaN before the first step."
  },
  {
   "property": "C65",
   "status": "partial",
   "theorems": [
    "GpsGen.C65.methods_no_deadlock_partial",
    "GpsGen.C65.methods_can_finish",
    "GpsGen.C65.writer_alone",
    "GpsGen.C65.device_callback_writer",
    "GpsGen.C65.generator_callback_attach",
    "GpsGen.C65.generator_callback_detach",
    "GpsGen.C65.generator_callback_hasTracker",
    "GpsGen.C65.device_callback_reader",
    "GpsGen.C65.generator_callback_lookup",
    "GpsGen.C65.callbacks_deadlock"
   ],
   "note": "Proved for all methods, with callbacks of Generator.Each that use devices only. False for callbacks that use the object whose lock is held: deadlocks reached for writers alone and for readers with a waiting writer. Locks only; channels are the subject of C39 to C42."
  },
  {
   "property": "C66",
   "status": "partial",
   "theorems": [
    "GpsGen.C66.delivered_began_partial",
    "GpsGen.C66.each_once",
    "GpsGen.C66.skipped",
    "GpsGen.C66.twice"
   ],
   "note": "Full claim is false: during the flush of a full packet in the middle of a tick the lock is free, a detached device makes the loop skip another one, a device detached and attached is delivered twice. Proved: the claim for fewer devices than packet slots, with clients at any time; for more devices, if clients stay out of that window, as far as C39 holds."
  },
  {
   "property": "C67",
   "status": "partial",
   "theorems": [
    "GpsGen.C67.eachTrack_visits_partial",
    "GpsGen.C67.eachRoute_visits_partial",
    "GpsGen.C67.device_eachRoute_visits_partial",
    "GpsGen.C67.eachSensor_visits_partial",
    "GpsGen.C67.visits_all",
    "GpsGen.C67.at_index",
    "GpsGen.C67.removal_skips",
    "GpsGen.C67.growing_never_returns",
    "GpsGen.C67.clear_leaves"
   ],
   "note": "Proved for every callback that leaves the collection as it is. The full claim is false: a callback that removes the element it is given skips every other element, and one that adds a track in every call never returns."
  },
  {
   "property": "C68",
   "status": "partial",
   "theorems": [
    "GpsGen.C68.safe_partial",
    "GpsGen.C68.returns_iff",
    "GpsGen.C68.one_moment",
    "GpsGen.C68.sensorAt_answer",
    "GpsGen.C68.removed_panics",
    "GpsGen.C68.removed_one_panics"
   ],
   "note": "The full claim is false: the length is checked before the lock is taken, so a sensor removed in between makes SensorAt panic (proved for every device with sensors). Proved: the exact panic condition, that whatever is returned is right for one moment, and safety if nothing is removed or restored meanwhile."
  },
  {
   "property": "C69",
   "status": "proved",
   "theorems": [
    "GpsGen.C69.props_round",
    "GpsGen.C69.props_bytes",
    "GpsGen.C69.unwritable_lost",
    "GpsGen.C69.string_text",
    "GpsGen.C69.sorted_keys",
    "GpsGen.C69.tracker_text",
    "GpsGen.C69.routes_text",
    "GpsGen.C69.plain_double",
    "GpsGen.C69Strings.string_grammar",
    "GpsGen.C69Documents.doc_grammar",
    "GpsGen.C69Documents.null_grammar",
    "GpsGen.C69Documents.refused"
   ],
   "note": "Any number type whose decimal numbers read as they were written; doubles are proved to be one. encoding/json is modelled from its documentation and RFC 8259; numbers are written with the digits of some decimal that reads back exactly, not the shortest one. The bytes must be shorter than 2^63 and the integers of the message 64-bit ones."
  },
  {
   "property": "C70",
   "status": "proved",
   "theorems": [
    "GpsGen.C70.client_sees",
    "GpsGen.C70.ticked_sees",
    "GpsGen.C70.routes_seen",
    "GpsGen.C70.setUTM_spec"
   ],
   "note": "Any number type, any history without restored snapshots. The UTM library is a parameter; properties are those JSON can represent; the packet is not empty and shorter than 2^63 bytes. The states are those at the time of encoding (see C39 for when that is)."
  },
  {
   "property": "C71",
   "status": "partial",
   "theorems": [
    "GpsGen.C71.delivered_iff_partial",
    "GpsGen.C71.user_id_spoils",
    "GpsGen.C71.description_spoils",
    "GpsGen.C71.model_spoils",
    "GpsGen.C71.wreck_delivered"
   ],
   "note": "Full claim is false: text that is not valid UTF-8 is accepted, and then the encoding of the whole slice fails for all its devices; without OnError the remains are handed to OnPacket. Proved: delivered if and only if all texts are valid. That proto.Marshal refuses invalid UTF-8 is taken from the protocol buffers documentation."
  },
  {
   "property": "C72",
   "status": "partial",
   "theorems": [
    "GpsGen.C72.left_at_end_partial",
    "GpsGen.C72.driven_to_end_partial",
    "GpsGen.C72.each_segment_partial",
    "GpsGen.C72.behind_repeat_never",
    "GpsGen.C72.repeat_at_start_stuck",
    "GpsGen.C72.claim_fails"
   ],
   "note": "Full claim is false: a segment without length is taken for the end of the track, so that nothing behind a repeated point is ever driven, and a device whose only track begins with a repeated point never moves (any number type, any steps). Proved for tracks all of whose segments have a length, in exact arithmetic for points without repetition."
  },
  {
   "property": "C73",
   "status": "partial",
   "theorems": [
    "GpsGen.C73.version_iff",
    "GpsGen.C73.driving_keeps",
    "GpsGen.C73.only_changes_partial",
    "GpsGen.C73.claim_fails"
   ],
   "note": "Full claim is false: TrackByID, a lookup, increments the version of the route. Proved: exactly which operations change the version, and the claim for all operations except this lookup and giving a name or colour, which may be the present one."
  },
  {
   "property": "C74",
   "status": "partial",
   "theorems": [
    "GpsGen.C74.sensors_partial",
    "GpsGen.C74.routes_partial",
    "GpsGen.C74.tracker_partial",
    "GpsGen.C74.nil_not_decodable",
    "GpsGen.C74.claim_fails"
   ],
   "note": "Full claim is false: a nil entry, a blank sensor and a blank device make the encoders panic. Proved: for lists exactly which arguments panic, that every other list gives what the other model files say, and that devices obtained through the public interface and nil devices never make EncodeTracker panic."
  },
  {
   "property": "C75",
   "status": "partial",
   "theorems": [
    "GpsGen.C75.result_eq",
    "GpsGen.C75.options_after",
    "GpsGen.C75.device_id",
    "GpsGen.C75.reused",
    "GpsGen.C75.same_id_same_options_partial",
    "GpsGen.C75.distinct_partial",
    "GpsGen.C75.lookup_first",
    "GpsGen.C75.detach_leaves",
    "GpsGen.C75.claim_fails"
   ],
   "note": "Full claim is false: NewDevice writes the identifier into the caller's options, so every device made from the same options has the same one. Proved: devices with the same identifier were made from the same options, and what that means for Lookup and Detach."
  },
  {
   "property": "C76",
   "status": "partial",
   "theorems": [
    "GpsGen.C76.tick_ge_one",
    "GpsGen.C76.tick_ge_gap",
    "GpsGen.C76.tick_exact",
    "GpsGen.C76.never_late",
    "GpsGen.C76.exact_iff",
    "GpsGen.C76.follows_clock_partial",
    "GpsGen.C76.excess",
    "GpsGen.C76.fast_rounds",
    "GpsGen.C76.late_start",
    "GpsGen.C76.interval_kept",
    "GpsGen.C76.claim_fails",
    "GpsGen.C76.device_duration",
    "GpsGen.C76.device_follows_clock_partial",
    "GpsGen.C76.Double.tick_whole",
    "GpsGen.C76.Double.follows_clock_whole_partial"
   ],
   "note": "Full claim is false: a round counts as at least a second, and a stale first round counts the time since it twice. Proved: exactly when it holds, by how much it fails otherwise, that simulated time is never late, and the same in doubles for rounds whole seconds apart."
  },
  {
   "property": "C77",
   "status": "partial",
   "theorems": [
    "GpsGen.C77.sharing_simulated",
    "GpsGen.C77.invariant_shared",
    "GpsGen.C77.routes_after",
    "GpsGen.C77.navs_after",
    "GpsGen.C77.untouched",
    "GpsGen.C77.others_unchanged_partial",
    "GpsGen.C77.removal_local",
    "GpsGen.C77.as_if_alone_partial",
    "GpsGen.C77.removal_everywhere",
    "GpsGen.C77.removal_seen",
    "GpsGen.C77.claim_fails"
   ],
   "note": "Full claim is false: RemoveTrack of one navigator takes the track from every navigator that holds the route. Proved: all other calls leave the others as they were, navigators sharing routes drive as if alone, and sharing in general gives no histories beyond those of the value model."
  },
  {
   "property": "C78",
   "status": "partial",
   "theorems": [
    "GpsGen.C78.track_corners",
    "GpsGen.C78.surrounds_partial",
    "GpsGen.C78.corner_distance",
    "GpsGen.C78.cities",
    "GpsGen.C78.claim_fails"
   ],
   "note": "Full claim is false: the angles cover 6*math.Phi, more than one and a half turns. Proved in exact arithmetic: the position of every corner, ascending angles between 0 and 6*Phi, the distance from the centre, and the presets."
  },
  {
   "property": "C79",
   "status": "proved",
   "theorems": [
    "GpsGen.C79.trajectory",
    "GpsGen.C79.only_attached",
    "GpsGen.C79.packet_seen"
   ],
   "note": "Devices are used by nobody but the generator while it runs, and none is attached or detached meanwhile (C66 is about that)."
  },
  {
   "property": "C80",
   "status": "partial",
   "theorems": [
    "GpsGen.C80.along_segment",
    "GpsGen.C80.device_on_line_partial",
    "GpsGen.C80.steps_apart",
    "GpsGen.C80.short_first",
    "GpsGen.C80.claim_fails"
   ],
   "note": "Exact arithmetic. Full claim is false: the first step on a track ends 1 m behind its start, which is off the line if the first segment is shorter than 1 m. Proved for all other steps."
  },
  {
   "property": "C81",
   "status": "partial",
   "theorems": [
    "GpsGen.C81.same_trip",
    "GpsGen.C81.restart_start",
    "GpsGen.C81.restarted_trip_partial",
    "GpsGen.C81.reset_as_new_partial",
    "GpsGen.C81.new_start",
    "GpsGen.C81.offline_goes_on",
    "GpsGen.C81.device_reset",
    "GpsGen.C81.place_fails",
    "GpsGen.C81.trip_fails"
   ],
   "note": "Holds for navigators that are not offline, for progress and from the first successful step on also for the location. The full claim fails: Reset keeps an offline period and the location (negations proved), although the comment of ResetNavigator says it resets the position."
  },
  {
   "property": "C82",
   "status": "partial",
   "theorems": [
    "GpsGen.C82.shows_current",
    "GpsGen.C82.stale",
    "GpsGen.C82.consistent_partial",
    "GpsGen.C82.id_right",
    "GpsGen.C82.torn",
    "GpsGen.C82.claim_fails",
    "GpsGen.C82.nowhere",
    "GpsGen.C82.not_a_copy"
   ],
   "note": "Holds while only calls that do not publish are made (moves, sensor and track objects, FromSnapshot), and always for the identifier. The full claim fails on every device: State hands out a live pointer and the encoder does not hold the device's lock (negations proved), so a message may have the latitude of one moment and the longitude of another."
  },
  {
   "property": "C83",
   "status": "partial",
   "theorems": [
    "GpsGen.C83.micrometre",
    "GpsGen.C83.two_metres_partial",
    "GpsGen.C83.positive",
    "GpsGen.C83.triangle",
    "GpsGen.C83.antipode_nan",
    "GpsGen.C83.claim_fails"
   ],
   "note": "Proved up to two metres from the antipode, for libraries whose sine, cosine and square root have errors of at most 2^-52 and whose inverse sine has an error of at most 2^-50 (assumed, met by a library that rounds exact values). The full claim fails: with the sine and cosine of Go's package math (modelled from its published algorithm, not part of /repo) the distance of 44.008 N 66.125 W and 44.008 S 113.875 E is NaN (negation proved)."
  },
  {
   "property": "C84",
   "status": "partial",
   "theorems": [
    "GpsGen.C84.destination_accurate_partial",
    "GpsGen.C84.requested_distance_partial",
    "GpsGen.C84.along_segment",
    "GpsGen.C84.segment_apart",
    "GpsGen.C84.steps_apart_partial",
    "GpsGen.C84.device_near_line_partial",
    "GpsGen.C84.pole_nan",
    "GpsGen.C84.claim_fails"
   ],
   "note": "Proved for destinations between 85 S and 85 N and for tracks between 80 S and 80 N with segments of at most 500 km and longitudes below 180, for libraries whose sine, cosine, square root, inverse sine and arc tangent are accurate (assumed, met by a library that rounds exact values). The first step on a segment shorter than a metre is excluded (false, C80). The full claim fails at the poles: with the sine and cosine of Go's package math the destination 1436.972 km to the north of 77.077 N has latitude NaN (negation proved)."
  },
  {
   "property": "C85",
   "status": "proved",
   "theorems": [
    "GpsGen.C85.track_length",
    "GpsGen.C85.new_line",
    "GpsGen.C85.route_length",
    "GpsGen.C85.total_length",
    "GpsGen.C85.odometer"
   ],
   "note": "IEEE doubles, for libraries with the signs, ranges and accuracy of C46 and C83 (assumed, met by a library that rounds exact values)."
  },
  {
   "property": "C86",
   "status": "proved",
   "theorems": [
    "GpsGen.C86.geometry_text",
    "GpsGen.C86.route_geometry_text",
    "GpsGen.C86.document_text",
    "GpsGen.C86.collection_read",
    "GpsGen.C86.routes_through_text",
    "GpsGen.C86.unwritable_fails",
    "GpsGen.C86.antipodal_route",
    "GpsGen.C86Grammar.json_grammar",
    "GpsGen.C86Grammar.last_counts",
    "GpsGen.C86Grammar.no_json",
    "GpsGen.C86Grammar.spelling"
   ],
   "note": "Any number type with decimal numbers that read as they were written. encoding/json and orb/geojson are modelled from RFC 8259, RFC 7946 and their documentation. What Decode loses (ids, colours, names of further tracks) is in C44."
  },
  {
   "property": "C87",
   "status": "partial",
   "theorems": [
    "GpsGen.C87.route_exact",
    "GpsGen.C87.routes_partial",
    "GpsGen.C87.routes_restored_partial",
    "GpsGen.C87.own_restorable",
    "GpsGen.C87.blank_lost",
    "GpsGen.C87.routes_claim_fails",
    "GpsGen.C87.tracker_partial",
    "GpsGen.C87.tracker_restored_partial",
    "GpsGen.C87.broken_decoded",
    "GpsGen.C87.tracker_claim_fails"
   ],
   "note": "Full claim is false. The exact result for every message is proved, and the claim for messages that can be restored, which includes everything EncodeRoutes writes for routes made through the API."
  },
  {
   "property": "C88",
   "status": "partial",
   "theorems": [
    "GpsGen.C88.decoded_api",
    "GpsGen.C88.routes_settle",
    "GpsGen.C88.files_settle",
    "GpsGen.C88.second_file_partial",
    "GpsGen.C88.negative_zero",
    "GpsGen.C88.coord_text",
    "GpsGen.C88.coord_once",
    "GpsGen.C88.text_once",
    "GpsGen.C88.coord_range",
    "GpsGen.C88.coord_mono",
    "GpsGen.C88.coord_accurate",
    "GpsGen.C88.point_moves",
    "GpsGen.C88.length_kept",
    "GpsGen.C88.closed_kept",
    "GpsGen.C88.double_files_settle"
   ],
   "note": "Full claim is false (negative_zero): the second file can differ from the third. Proved: the third and all later files are equal; the second already if the texts of the route properties are stable after the first load. Ten decimals is how gpxgo writes coordinates, see testdata; the library itself is not on hand. Lengths need the accuracy of the mathematical library (Library, Accurate) and segments below 10 000 km."
  },
  {
   "property": "C89",
   "status": "partial",
   "theorems": [
    "GpsGen.C89.document_text",
    "GpsGen.C89.routes_text_partial",
    "GpsGen.C89.text_never_panics",
    "GpsGen.C89.spaced_key_unreadable",
    "GpsGen.C89.claim_fails",
    "GpsGen.C89.forged",
    "GpsGen.C89.layout_ok",
    "GpsGen.C89.double_routes_text",
    "GpsGen.C89Grammar.xml_grammar",
    "GpsGen.C89Grammar.no_xml",
    "GpsGen.C89Grammar.spelling"
   ],
   "note": "Full claim is false (claim_fails: keys that are not XML names). Proved for keys that are XML names and texts of XML characters. encoding/xml and gpxgo are not on hand: the writer and reader are modelled from their documentation and gpx/testdata/restore.gpx; comments, CDATA and DOCTYPE are not read by the model, so text_never_panics covers the code of gpx/encoding.go after the library has read or rejected the text."
  },
  {
   "property": "C90",
   "status": "partial",
   "theorems": [
    "GpsGen.C90.shown_partial",
    "GpsGen.C90.returns_iff",
    "GpsGen.C90.half_written",
    "GpsGen.C90.bad_index",
    "GpsGen.C90.nil_message",
    "GpsGen.C90.again",
    "GpsGen.C90.device_message",
    "GpsGen.C90.claim_fails"
   ],
   "note": "Full claim is false for every number type (claim_fails). Proved: exactly when Update returns (returns_iff), that the message then shows the navigator and is otherwise unchanged (shown_partial), what is written before each panic, idempotence, and that devices (C35, C70) are the special case of complete messages. The two DMS messages are taken to be distinct objects."
  },
  {
   "property": "C91",
   "status": "partial",
   "theorems": [
    "GpsGen.C91.typescript",
    "GpsGen.C91.javascript",
    "GpsGen.C91.browser_partial",
    "GpsGen.C91.claim_fails",
    "GpsGen.C91.as_in_go",
    "GpsGen.C91.later_fields",
    "GpsGen.C91.browser_sees",
    "GpsGen.C91.jsNum_nearest"
   ],
   "note": "TypeScript: full claim. JavaScript: the exact result for every packet, the claim for integers up to 2^53 (all that devices publish in practice), and its negation beyond. The runtimes @protobuf-ts/runtime and google-protobuf are not part of the repository and are modelled from the wire format specification and their documentation."
  },
  {
   "property": "C92",
   "status": "partial",
   "theorems": [
    "GpsGen.C92.simulated",
    "GpsGen.C92.rest_alone",
    "GpsGen.C92.moving_alone_partial",
    "GpsGen.C92.quiet_unless_lap",
    "GpsGen.C92.claim_fails",
    "GpsGen.C92.once_after"
   ],
   "note": "The full claim is false for the values of sensors; the negation is proved. Proved: the rest of the device is as if alone, moving devices publish as if alone unless others change the curves of their sensors, and sharing amounts to a history of own calls and calls of the sensors. Calls come one after the other: devices that share a sensor lock only themselves, so concurrent calls would race."
  },
  {
   "property": "C93",
   "status": "partial",
   "theorems": [
    "GpsGen.C93.usable_partial",
    "GpsGen.C93.bytes_partial",
    "GpsGen.C93.refused",
    "GpsGen.C93.empty_sensor_panics",
    "GpsGen.C93.empty_speed_panics",
    "GpsGen.C93.empty_never_moves",
    "GpsGen.C93.claim_fails",
    "GpsGen.C93.next_claim_fails"
   ],
   "note": "The full claim is false: curves without control points are accepted and panic when evaluated (claim_fails for every number type, next_claim_fails in doubles). Proved: this is the only danger, for every byte string and every later history, and the condition is necessary. Indices are unbounded integers in the model; by C100 overflow makes no difference for navigators (offline bounds near 2^63 excepted); DestinationTo is restricted as in C54."
  },
  {
   "property": "C94",
   "status": "partial",
   "theorems": [
    "GpsGen.C94.lap_exact",
    "GpsGen.C94.lap_between_partial",
    "GpsGen.C94.not_late_partial",
    "GpsGen.C94.not_early_partial",
    "GpsGen.C94.claim_partial",
    "GpsGen.C94.short_segments",
    "GpsGen.C94.over_at_once",
    "GpsGen.C94.built_roads",
    "GpsGen.C94.periods_configured",
    "GpsGen.C94.claim_fails"
   ],
   "note": "The full claim is false (claim_fails; over_at_once for every number type). Proved in exact arithmetic: the exact number of calls for constant steps, bounds for varying steps and offline periods, the upper bound length/speed plus one call per track, the lower bound short of it by less than one call per segment. Tracks with repeated points are left out (C72)."
  },
  {
   "property": "C95",
   "status": "partial",
   "theorems": [
    "GpsGen.C95.published",
    "GpsGen.C95.published_new",
    "GpsGen.C95.received_on_road",
    "GpsGen.C95.packet_on_road",
    "GpsGen.C95.dense",
    "GpsGen.C95.on_road_partial",
    "GpsGen.C95.subscribers_partial",
    "GpsGen.C95.dense_tracks",
    "GpsGen.C95.bicycle_lost",
    "GpsGen.C95.claim_fails",
    "GpsGen.C95.Double.on_road_partial",
    "GpsGen.C95.Double.subscribers_partial"
   ],
   "note": "The full claim is false (claim_fails: the package's bicycle preset on a track of points 1.1 m apart is published at 0, 0 for ever). Proved: positions after the first successful step are on the road, in exact arithmetic (great circles) and in doubles (within 1/30000 m, for accurate mathematical libraries, away from the poles and with a slowest speed above the rounding errors), for devices, for onPacket and for the decoded bytes. First segments shorter than 1 m are left out (C80)."
  },
  {
   "property": "C96",
   "status": "partial",
   "theorems": [
    "GpsGen.C96.continues_partial",
    "GpsGen.C96.continues_bytes_partial",
    "GpsGen.C96.driven_ready",
    "GpsGen.C96.moved_noStale",
    "GpsGen.C96.trip_partial",
    "GpsGen.C96.restart_partial",
    "GpsGen.C96.claim_fails",
    "GpsGen.C96.claim_fails_real"
   ],
   "note": "The full claim is false for the published state (claim_fails, and claim_fails_real for a preset of the package in exact arithmetic). Proved: speed, battery, sensors, position, cursor, distances, routes, elevation, offline period, identity and clock agree after any number of rounds; the whole published state agrees from the first round on in which the device moves; for devices, for the bytes of EncodeTracker, and for what subscribers of the two generators receive. Devices are saved after at least one round, with no id of a former track published (true after any round in which they moved) and representable properties (C23)."
  },
  {
   "property": "C97",
   "status": "partial",
   "theorems": [
    "GpsGen.C97.laps",
    "GpsGen.C97.laps_skip",
    "GpsGen.C97.no_offline_partial",
    "GpsGen.C97.forever_partial",
    "GpsGen.C97.new_forever_partial",
    "GpsGen.C97.bicycle_forever",
    "GpsGen.C97.stuck",
    "GpsGen.C97.weak_stuck",
    "GpsGen.C97.claim_fails",
    "GpsGen.C97.Double.no_offline_partial"
   ],
   "note": "The full claim is false (claim_fails: the bicycle preset with a charge time of one second never moves, whatever the ticker and the draws). Proved over the real numbers for devices of any history with offline mode disabled, or whose battery lasts longer than the longest offline period; in doubles with offline mode disabled, a least speed above the rounding errors and segments not longer than 2^51 of it."
  },
  {
   "property": "C98",
   "status": "partial",
   "theorems": [
    "GpsGen.C98.fixed_shows",
    "GpsGen.C98.same_text",
    "GpsGen.C98.shown_mono",
    "GpsGen.C98.speed_partial",
    "GpsGen.C98.static_zero",
    "GpsGen.C98.static_wrong",
    "GpsGen.C98.claim_fails",
    "GpsGen.C98.battery",
    "GpsGen.C98.sensor",
    "GpsGen.C98.point",
    "GpsGen.C98.sensor_same",
    "GpsGen.C98.point_same",
    "GpsGen.C98.texts",
    "GpsGen.C98.empty_iff",
    "GpsGen.C98.random_model"
   ],
   "note": "The full claim is false for constant speeds (claim_fails; static_wrong for every constant speed above half a hundredth, after any calls). Proved for everything else. fmt and strconv are not part of the repository: %.kf is modelled from their documentation."
  },
  {
   "property": "C99",
   "status": "partial",
   "theorems": [
    "GpsGen.C99.gradual_partial",
    "GpsGen.C99.steps_partial",
    "GpsGen.C99.point_gap",
    "GpsGen.C99.sharp",
    "GpsGen.C99.bicycle_jumps",
    "GpsGen.C99.claim_fails",
    "GpsGen.C99.bicycle_moves"
   ],
   "note": "Exact arithmetic. The full claim is false at the end of a lap (claim_fails; bicycle_jumps: the bicycle tracker of the package goes from 2 to 8 m/s within one second on a trip of more than five hours). Proved within a lap; the bound is sharp for curves with two control points (sharp). Values are those before rounding for publication."
  },
  {
   "property": "C100",
   "status": "partial",
   "theorems": [
    "GpsGen.C100.run64_partial",
    "GpsGen.C100.step64_eq",
    "GpsGen.C100.fresh",
    "GpsGen.C100.restored",
    "GpsGen.C100.new64_eq",
    "GpsGen.C100.changed",
    "GpsGen.C100.sum64_eq",
    "GpsGen.C100.value64_iff",
    "GpsGen.C100.overflow",
    "GpsGen.C100.claim_fails"
   ],
   "note": "The full claim is false for offline bounds within 2^32 of 2^63, possible in a snapshot (overflow, claim_fails; value64_iff says exactly when). Proved for all other navigators; for those made by New without condition (fresh). Memory bounds on the slices are assumed (at most 2^32 routes per navigator and tracks per route)."
  },
  {
   "property": "C101",
   "status": "partial",
   "theorems": [
    "GpsGen.C101.readme_partial",
    "GpsGen.C101.route_pos",
    "GpsGen.C101.tracker_made",
    "GpsGen.C101.populated",
    "GpsGen.C101.stops",
    "GpsGen.C101.too_many",
    "GpsGen.C101.claim_fails"
   ],
   "note": "The full claim is false from 2053 trackers on (claim_fails, from C40). Proved for up to 2052 in exact arithmetic; composed of C40, C50, C54, C78, C79 and C97."
  },
  {
   "property": "C102",
   "status": "partial",
   "theorems": [
    "GpsGen.C102.examples_work_partial",
    "GpsGen.C102.sensors_work",
    "GpsGen.C102.serialize_works",
    "GpsGen.C102.generator_safe_partial",
    "GpsGen.C102.hand_made",
    "GpsGen.C102.random_made",
    "GpsGen.C102.geo_made",
    "GpsGen.C102.gpx_made",
    "GpsGen.C102.sensors_made",
    "GpsGen.C102.drone_made",
    "GpsGen.C102.whole",
    "GpsGen.C102.Double.examples_work_partial",
    "GpsGen.C102.Double.drone_works_partial",
    "GpsGen.C102.Double.line_usual",
    "GpsGen.C102.Double.callback_fails",
    "GpsGen.C102.Double.claim_fails",
    "GpsGen.C102.callback_fails",
    "GpsGen.C102.claim_fails"
   ],
   "note": "The full claim is false: after Close a callback may get a device without a location (callback_fails for the four programs whose callback reads it, claim_fails). Proved while the generator is open, and without that restriction for examples/addsensor, in exact arithmetic; serialize_works is about the message, not its bytes. In IEEE doubles the three programs with fixed points work in the same way, with any mathematical library of the usual accuracy, and fail after Close in the same way; programs with random routes do so for every route of usual length (drone_works_partial)."
  },
  {
   "property": "C103",
   "status": "partial",
   "theorems": [
    "GpsGen.C103.recovered_panics_partial",
    "GpsGen.C103.never_written",
    "GpsGen.C103.next_fails",
    "GpsGen.C103.setter_waits",
    "GpsGen.C103.generator_stops",
    "GpsGen.C103.snapshot_leaves_iff",
    "GpsGen.C103.claim_fails"
   ],
   "note": "The full claim is false for Snapshot (setter_waits, generator_stops, claim_fails for every device with a sensor). Proved for all other calls and for Snapshot that does not panic in its loop. Only the locks are modelled, not what a panic leaves half done in the data."
  },
  {
   "property": "C104",
   "status": "partial",
   "theorems": [
    "GpsGen.C104.offline_reach_partial",
    "GpsGen.C104.max_offline_never",
    "GpsGen.C104.even_draws",
    "GpsGen.C104.sensor_reach_partial",
    "GpsGen.C104.shuffle_reach_partial",
    "GpsGen.C104.max_sensor_never",
    "GpsGen.C104.freedom_pos",
    "GpsGen.C104.speed_reach_partial",
    "GpsGen.C104.max_speed_never",
    "GpsGen.C104.latLon_reach_partial",
    "GpsGen.C104.country_reach_partial",
    "GpsGen.C104.string_reach",
    "GpsGen.C104.string_injective"
   ],
   "note": "The full claim is false at the upper limits (max_offline_never, max_speed_never, max_sensor_never). Each theorem states exactly which values occur. Curves and coordinates in exact arithmetic with draws 0 <= u < 1; a draw of fastrand is any non-zero word."
  },
  {
   "property": "C105",
   "status": "partial",
   "theorems": [
    "GpsGen.C105.props_handle",
    "GpsGen.C105.set_through",
    "GpsGen.C105.remove_through",
    "GpsGen.C105.merge_through",
    "GpsGen.C105.handle_stays",
    "GpsGen.C105.handle_kept",
    "GpsGen.C105.isolated_partial",
    "GpsGen.C105.reset_keeps",
    "GpsGen.C105.panics_iff",
    "GpsGen.C105.shared",
    "GpsGen.C105.reset_fails"
   ],
   "note": "The full claim is false: maps given to RestoreRoute are shared (shared), Reset does not reach the object (reset_fails). isolated_partial covers programs that do not call RestoreRoute with a map of their own; the other theorems cover all programs."
  },
  {
   "property": "C106",
   "status": "proved",
   "theorems": [
    "GpsGen.C106.one_after_the_other",
    "GpsGen.C106.no_draw_twice",
    "GpsGen.C106.can_finish"
   ],
   "note": "What rand.Rand computes is a parameter. Calls of the top-level functions of math/rand (random/latlon.go) are guarded by that library and not part of the model."
  },
  {
   "property": "C107",
   "status": "partial",
   "theorems": [
    "GpsGen.C107.identity",
    "GpsGen.C107.update_agrees_partial",
    "GpsGen.C107.next_agrees_partial",
    "GpsGen.C107.halted_agrees",
    "GpsGen.C107.added_unpublished",
    "GpsGen.C107.moved_unpublished",
    "GpsGen.C107.claim_fails"
   ],
   "note": "The full claim (at any time) is false: claim_fails. The partial theorems cover all devices after Update and after a successful Next."
  },
  {
   "property": "C108",
   "status": "proved",
   "theorems": [
    "GpsGen.C108.lost_iff",
    "GpsGen.C108.jump_leaves",
    "GpsGen.C108.repaired",
    "GpsGen.C108.restored"
   ],
   "note": "Any number type. 'Covered calls' are those of C54.Proper: a further DestinationTo only while at most two routes are held, since another jump can lose the position again. The state a panicking call leaves is not computed; every state with the old curves and offline settings is allowed instead."
  },
  {
   "property": "C109",
   "status": "proved",
   "theorems": [
    "GpsGen.C109.like_values",
    "GpsGen.C109.handed_out_stays",
    "GpsGen.C109.client_harmless",
    "GpsGen.C109.add_routes",
    "GpsGen.C109.add_sensors",
    "GpsGen.C109.removed",
    "GpsGen.C109.detached",
    "GpsGen.C109.others"
   ],
   "note": "One call after the other; locks are not part of this model. Pointers are compared by id only; what they point to is shared between library and client, see C77 and C92."
  },
  {
   "property": "C110",
   "status": "proved",
   "theorems": [
    "GpsGen.C110.searches",
    "GpsGen.C110.removals",
    "GpsGen.C110.sums",
    "GpsGen.C110.versions",
    "GpsGen.C110.points",
    "GpsGen.C110.devices",
    "GpsGen.C110.generator"
   ],
   "note": "The loops of Model/Loops.lean, written with counters and panicking reads, equal the functions on lists used by all other theorems."
  }
 ]
}