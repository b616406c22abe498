{
 "claims": [
  {
   "property": "C01",
   "status": "proved",
   "theorems": [
    "Trax.C01_round_trip"
   ],
   "note": "all deliverable messages, all write and read schedules, all reader histories"
  },
  {
   "property": "C02",
   "status": "proved",
   "theorems": [
    "Trax.C02_message_sequence"
   ],
   "note": "all message sequences and schedules"
  },
  {
   "property": "C03",
   "status": "proved",
   "theorems": [
    "Trax.C03_chunking_irrelevant"
   ],
   "note": "any two cuttings of the same bytes, including the logged text"
  },
  {
   "property": "C04",
   "status": "proved",
   "theorems": [
    "Trax.C04_partial_writes"
   ],
   "note": "every non-failing schedule of partial writes"
  },
  {
   "property": "C05",
   "status": "partial",
   "theorems": [
    "Trax.C05_failed_write_stops_false",
    "Trax.C05_broken_stream_partial",
    "Trax.C05_any_failure_partial",
    "Trax.C05_failure_not_reported"
   ],
   "note": "violated for transient failures (later parts are still sent); a stream that fails for good leaves a prefix; any schedule leaves a subsequence That the failure is reported by the API call is false: the calls return TRAX_OK (not reported)."
  },
  {
   "property": "C06",
   "status": "proved",
   "theorems": [
    "Trax.C06_one_line"
   ],
   "note": "all NUL-free payloads with valid keys"
  },
  {
   "property": "C07",
   "status": "proved",
   "theorems": [
    "Trax.C07_unambiguous"
   ],
   "note": "injectivity on deliverable messages"
  },
  {
   "property": "C08",
   "status": "proved",
   "theorems": [
    "Trax.C08_foreign_lines_ignored"
   ],
   "note": "any number of 7-bit foreign lines; only the log differs"
  },
  {
   "property": "C09",
   "status": "partial",
   "theorems": [
    "Trax.C09_foreign_bytes_false",
    "Trax.C09_foreign_byte_partial"
   ],
   "note": "violated: a byte above 127 ends the read with the previous message's type; exact behaviour proved"
  },
  {
   "property": "C10",
   "status": "partial",
   "theorems": [
    "Trax.C10_eof_is_error_false",
    "Trax.C10_eof_repeats_last_type",
    "Trax.C10_fresh_eof_partial",
    "Trax.C10_truncated_delivered"
   ],
   "note": "violated: end of stream repeats the last message type forever; exact behaviour proved, error on fresh streams proved"
  },
  {
   "property": "C11",
   "status": "partial",
   "theorems": [
    "Trax.C11_malformed_line_false",
    "Trax.C11_stray_character_leaks",
    "Trax.C11_stray_character_forges",
    "Trax.C11_unknown_type_partial"
   ],
   "note": "violated by three witnesses; unknown types followed by anything on the line are skipped"
  },
  {
   "property": "C12",
   "status": "partial",
   "theorems": [
    "Trax.C12_eight_bit_false",
    "Trax.C12_eight_bit_partial"
   ],
   "note": "violated: the message is cut at the first byte above 127; exact behaviour proved"
  },
  {
   "property": "C13",
   "status": "partial",
   "theorems": [
    "Trax.C13_argument_stays_argument_false",
    "Trax.C13_classification_partial"
   ],
   "note": "violated for arguments of the form key=value; exact classification proved"
  },
  {
   "property": "C14",
   "status": "partial",
   "theorems": [
    "Trax.C14_invalid_key_false",
    "Trax.C14_valid_keys_partial"
   ],
   "note": "violated: keys are not checked when set; valid keys are delivered exactly"
  },
  {
   "property": "C15",
   "status": "proved",
   "theorems": [
    "Trax.C15_read_consumes"
   ],
   "note": "all inputs and chunkings"
  },
  {
   "property": "C16",
   "status": "proved",
   "theorems": [
    "Trax.C16_properties_map"
   ],
   "note": "all histories of operations"
  },
  {
   "property": "C17",
   "status": "proved",
   "theorems": [
    "Trax.C17_enumeration"
   ],
   "note": "all histories"
  },
  {
   "property": "C18",
   "status": "proved",
   "theorems": [
    "Trax.C18_copy"
   ],
   "note": "all histories"
  },
  {
   "property": "C19",
   "status": "partial",
   "theorems": [
    "Trax.C19_append_keeps_existing_false",
    "Trax.C19_append_partial"
   ],
   "note": "violated for overwrite = 0; holds for overwrite"
  },
  {
   "property": "C20",
   "status": "proved",
   "theorems": [
    "Trax.C20_int_round_trip",
    "Trax.C20_int_round_trip_sent"
   ],
   "note": "all 32-bit integers, locally and through a message"
  },
  {
   "property": "C21",
   "status": "partial",
   "theorems": [
    "Trax.C21_default_false",
    "Trax.C21_default_partial",
    "Trax.C21_decimal_partial"
   ],
   "note": "violated: the empty text gives an uninitialised result and large numbers overflow int; proved for texts that do not begin like a number (default) and for decimal texts (value)"
  },
  {
   "property": "C22",
   "status": "proved",
   "theorems": [
    "Trax.C22_base64_round_trip"
   ],
   "note": "all byte sequences"
  },
  {
   "property": "C23",
   "status": "proved",
   "theorems": [
    "Trax.C23_base64_sizes",
    "Trax.C23_overflow_attained",
    "Trax.C23_short_text_out_of_bounds"
   ],
   "note": "all texts; for texts shorter than two characters the byte in front of the text is assumed to exist and not to be '=' (always NUL in the library)"
  },
  {
   "property": "C24",
   "status": "proved",
   "theorems": [
    "Trax.C24_path_round_trip"
   ],
   "note": "all NUL-free paths"
  },
  {
   "property": "C25",
   "status": "partial",
   "theorems": [
    "Trax.C25_url_round_trip_false",
    "Trax.C25_url_partial"
   ],
   "note": "violated: only the scheme of a URL arrives; exact behaviour proved"
  },
  {
   "property": "C26",
   "status": "partial",
   "theorems": [
    "Trax.C26_memory_in_bounds_false",
    "Trax.C26_memory_partial"
   ],
   "note": "values are transferred for all memory images; the decoder always writes one byte behind the buffer"
  },
  {
   "property": "C27",
   "status": "partial",
   "theorems": [
    "Trax.C27_buffer_round_trip_false",
    "Trax.C27_buffer_partial"
   ],
   "note": "violated: the received buffer is always one byte longer; exact behaviour proved"
  },
  {
   "property": "C28",
   "status": "partial",
   "theorems": [
    "Trax.C28_image_decode_safe_false",
    "Trax.C28_image_decode_partial"
   ],
   "note": "violated: abort, integer overflow and one-byte overrun; safe classes and the bound of one byte proved for all texts"
  },
  {
   "property": "C29",
   "status": "partial",
   "theorems": [
    "Trax.C29_rows_disjoint_false",
    "Trax.C29_rows_partial"
   ],
   "note": "violated for width > 1; every row range stays in bounds"
  },
  {
   "property": "C30",
   "status": "proved",
   "theorems": [
    "Trax.C30_format_sets"
   ],
   "note": "all 32-bit sets"
  },
  {
   "property": "C31",
   "status": "partial",
   "theorems": [
    "Trax.C31_handshake_partial",
    "Trax.C31_handshake_false"
   ],
   "note": "Custom properties in the protocol's own name space, undeclared bits in the format sets and, for version 1, channels other than color are not transferred; counterexamples in C31_handshake_false."
  },
  {
   "property": "C32",
   "status": "proved",
   "theorems": [
    "Trax.C32_only_hello",
    "Trax.C32_others_refused"
   ],
   "note": ""
  },
  {
   "property": "C33",
   "status": "partial",
   "theorems": [
    "Trax.C33_safe_partial",
    "Trax.C33_safe_false"
   ],
   "note": "Never aborts. Introductions without region, image or channel declarations and with an empty or out-of-range version are undefined behaviour; counterexamples in C33_safe_false."
  },
  {
   "property": "C34",
   "status": "partial",
   "theorems": [
    "Trax.C34_special_codes_false",
    "Trax.C34_special_codes_partial"
   ],
   "note": "violated for codes with more than 24 significant bits; exact characterisation proved"
  },
  {
   "property": "C35",
   "status": "partial",
   "theorems": [
    "Trax.C35_mask_false",
    "Trax.C35_mask_partial"
   ],
   "note": "violated for masks without foreground (abort), without pixels, and offsets over 2^24; proved for all other masks of up to 2^24 pixels"
  },
  {
   "property": "C36",
   "status": "proved",
   "theorems": [
    "Trax.C36_rectangle",
    "Trax.C36_polygon"
   ],
   "note": "all non-NaN single precision coordinates, any number of points from 3"
  },
  {
   "property": "C37",
   "status": "partial",
   "theorems": [
    "Trax.C37_stable_false",
    "Trax.C37_stable_partial",
    "Trax.C37_second_hop"
   ],
   "note": "violated for NaN coordinates and codes over 24 bits; proved for all other regions, and from the second hop on for every text"
  },
  {
   "property": "C38",
   "status": "partial",
   "theorems": [
    "Trax.C38_parse_safe_false",
    "Trax.C38_return_partial",
    "Trax.C38_parse_safe_partial"
   ],
   "note": "violated: stray write for all-comma texts, aborts for wrong counts, UB for large numbers, success without region for the empty text; exact return code and stray-write condition proved, safety proved for texts without a colon and with moderate numbers"
  },
  {
   "property": "C39",
   "status": "partial",
   "theorems": [
    "Trax.C39_sent_format_partial",
    "Trax.C39_converts_partial",
    "Trax.C39_special_false",
    "Trax.C39_thin_rectangle_false"
   ],
   "note": "Whatever is sent has a declared format; conversion is total for trackers that declare rectangles or polygons only. Violated: special regions and thin rectangles (mask trackers) abort the client."
  },
  {
   "property": "C40",
   "status": "partial",
   "theorems": [
    "Trax.C40_polygon_bounds",
    "Trax.C40_mask_bounds_false",
    "Trax.C40_mask_bounds_partial",
    "Trax.C40_rectangle_bounds_partial",
    "Trax.C40_thin_rectangle_false",
    "Trax.C40_special_bounds"
   ],
   "note": "polygons and special regions in full; masks violated beyond 2^24 (rounding), proved within; rectangles proved for whole coordinates within 2^24, violated for rectangles less than a pixel wide, whose right bound is left of the left one"
  },
  {
   "property": "C41",
   "status": "partial",
   "theorems": [
    "Trax.C41_bounding_box_false",
    "Trax.C41_polygon_box_partial",
    "Trax.C41_mask_box_partial"
   ],
   "note": "violated for polygons whose largest coordinate is below FLT_MIN; proved for all other polygons and for masks within 2^24 of the origin"
  },
  {
   "property": "C42",
   "status": "partial",
   "theorems": [
    "Trax.C42_rectangle_polygon_false",
    "Trax.C42_legacy_partial",
    "Trax.C42_default_partial"
   ],
   "note": "violated in the default mode (one pixel lost); proved in legacy mode for ends that are floats, exact loss proved for the default mode"
  },
  {
   "property": "C43",
   "status": "partial",
   "theorems": [
    "Trax.C43_polygon_mask_false",
    "Trax.C43_small_false",
    "Trax.C43_rectangle_partial",
    "Trax.C43_cut_rectangle_partial",
    "Trax.C43_fraction_false"
   ],
   "note": "violated: a polygon's mask is placed at y = right end, sub-pixel rectangles abort, and a rectangle between pixels is cut towards zero where rasterising rounds; proved for rectangles with integer coordinates, and what becomes of every rectangle of at least one pixel"
  },
  {
   "property": "C44",
   "status": "partial",
   "theorems": [
    "Trax.C44_window_false",
    "Trax.C44_window_partial"
   ],
   "note": "violated at the ends of the int range; proved within 2^30 of the origin"
  },
  {
   "property": "C45",
   "status": "partial",
   "theorems": [
    "Trax.C45_point_false",
    "Trax.C45_rectangle_partial",
    "Trax.C45_rectangle_inside",
    "Trax.C45_mask_partial"
   ],
   "note": "violated by rounding of large rectangles and by truncation at negative positions (also an out-of-bounds read); proved for exact rectangle ends and for masks at non-negative positions"
  },
  {
   "property": "C46",
   "status": "partial",
   "theorems": [
    "Trax.C46_raster_false",
    "Trax.C46_raster_partial",
    "Trax.C46_nodes"
   ],
   "note": "violated for coordinates of 2^32; proved for coordinates up to 2^29; node buffer in full"
  },
  {
   "property": "C47",
   "status": "proved",
   "theorems": [
    "Trax.C47_sort"
   ],
   "note": "every list of intersections"
  },
  {
   "property": "C48",
   "status": "partial",
   "theorems": [
    "Trax.C48_symmetric",
    "Trax.C48_range_false",
    "Trax.C48_range_partial"
   ],
   "note": "symmetry in full; violated range: NaN when there are no pixels; proved otherwise"
  },
  {
   "property": "C49",
   "status": "partial",
   "theorems": [
    "Trax.C49_jaccard_false",
    "Trax.C49_jaccard_partial",
    "Trax.C49_identical_partial",
    "Trax.C49_bounded_partial",
    "Trax.C49_cut_false",
    "Trax.C49_outside_false"
   ],
   "note": "Proved for masks, rectangles with whole coordinates and convex polygons with whole corners (slanted sides meeting no row in a whole number between their ends), in a frame of at most 2^23 pixels, in the default mode, for bounds that contain the regions and for bounds at whole positions that cut them. Not covered: other polygons, fractional rectangles, legacy mode, fractional bounds that cut the regions. The code violates the claim for boxes that share only one column or row, for polygons cut at their left end, and ends the program for a region outside of the bounds on two sides."
  },
  {
   "property": "C50",
   "status": "partial",
   "theorems": [
    "Trax.C50_history_partial",
    "Trax.C50_plain_partial",
    "Trax.C50_own_element_false",
    "Trax.C50_self_append_false",
    "Trax.C50_null_false"
   ],
   "note": "Refinement of all histories of region and list operations on a heap to plain values, including absence of use-after-free, double free and leaks, for programs that respect three rules; each rule is shown to be necessary."
  },
  {
   "property": "C51",
   "status": "partial",
   "theorems": [
    "Trax.C51_image_lists",
    "Trax.C51_count_partial",
    "Trax.C51_count_false"
   ],
   "note": "Image lists: all histories. Counting: all sets without bit 31; for those the code's signed subtraction overflows."
  },
  {
   "property": "C52",
   "status": "proved",
   "theorems": [
    "Trax.C52_terminate_once",
    "Trax.C52_cleanup"
   ],
   "note": "All histories of calls after the first termination."
  },
  {
   "property": "C53",
   "status": "proved",
   "theorems": [
    "Trax.C53_terminated_is_silent",
    "Trax.C53_calls_return",
    "Trax.C53_quit_terminates"
   ],
   "note": "All histories of calls on a terminated handle."
  },
  {
   "property": "C54",
   "status": "partial",
   "theorems": [
    "Trax.C54_accepted",
    "Trax.C54_accepted_sot",
    "Trax.C54_refused_partial",
    "Trax.C54_refused_false"
   ],
   "note": "Accepted replies in full. Refused replies: in full for the single-object interface; for the multi-object interface if every entry has a region with a text. For a NULL region the claim is false: the entries before it are sent."
  },
  {
   "property": "C55",
   "status": "partial",
   "theorems": [
    "Trax.C55_counts_partial",
    "Trax.C55_start",
    "Trax.C55_counts_false"
   ],
   "note": "Holds for every history of proper exchanges after an introduction (C55_start gives the starting point); violated after a call that fails half way (C55_counts_false)."
  },
  {
   "property": "C56",
   "status": "partial",
   "theorems": [
    "Trax.C56_exchange_partial",
    "Trax.C56_exchange_false"
   ],
   "note": "Holds for every exchange with at least one object whose parts can be sent; violated for exchanges without objects and, in the exact bytes, for buffer images."
  },
  {
   "property": "C57",
   "status": "partial",
   "theorems": [
    "Trax.C57_refused_partial",
    "Trax.C57_refused_false"
   ],
   "note": "Every refusal except that of incomplete images with version 4, where the claim is false."
  },
  {
   "property": "C58",
   "status": "partial",
   "theorems": [
    "Trax.C58_wait_ends_partial",
    "Trax.C58_error_or_quit_partial",
    "Trax.C58_wait_ends_false"
   ],
   "note": "The wait ends for every finite input after which the last message type is not hello, initialize or state; otherwise it hangs, so the full claim is false."
  },
  {
   "property": "C59",
   "status": "proved",
   "theorems": [
    "Trax.C59_images_as_declared"
   ],
   "note": "Every input, both interfaces."
  },
  {
   "property": "C60",
   "status": "partial",
   "theorems": [
    "Trax.C60_initialize_or_frame_partial",
    "Trax.C60_sot_partial",
    "Trax.C60_no_region_false"
   ],
   "note": "Multi-object interface for every input: initialize exactly if there are new objects and none beside them. Single-object interface: initialize without a region is possible (witness). The exact correspondence to the client's calls is in C56."
  },
  {
   "property": "C61",
   "status": "proved",
   "theorems": [
    "Trax.C61_modes"
   ],
   "note": "Every live handle."
  },
  {
   "property": "C62",
   "status": "partial",
   "theorems": [
    "Trax.C62_reason_partial",
    "Trax.C62_reason_false"
   ],
   "note": "Holds for waiting clients with objects and for the single-object interface; false for the multi-object interface of the server and for clients without objects."
  },
  {
   "property": "C63",
   "status": "partial",
   "theorems": [
    "Trax.C63_released_once_partial",
    "Trax.C63_self_assignment_false",
    "Trax.C63_moved_from_false",
    "Trax.C63_lists_false"
   ],
   "note": "Holds for every program without self assignment, copies of moved-from objects and lists made by ImageList() or ObjectList(int); each of the three exceptions has a witness."
  },
  {
   "property": "C64",
   "status": "partial",
   "theorems": [
    "Trax.C64_value_semantics_partial",
    "Trax.C64_clear_false"
   ],
   "note": "Holds for every program without self assignment, copies of moved-from objects and clear() of an object whose value is still shared; clear() of a shared object violates the claim."
  },
  {
   "property": "C65",
   "status": "partial",
   "theorems": [
    "Trax.C65_no_properties_partial",
    "Trax.C65_reply_properties_false",
    "Trax.C65_lost_false"
   ],
   "note": "The arguments of trax_properties_append are swapped: what is sent does not depend on the given properties. Only replies without properties behave as claimed."
  },
  {
   "property": "C66",
   "status": "partial",
   "theorems": [
    "Trax.C66_log_partial",
    "Trax.C66_long_line_false"
   ],
   "note": "All byte sequences, flushes and limits, for lines shorter than 2^31-1 bytes; longer lines overflow the counter (C66_long_line_false). Threads are not modelled."
  },
  {
   "property": "C67",
   "status": "partial",
   "theorems": [
    "Trax.C67_watchdog_partial",
    "Trax.C67_race_false"
   ],
   "note": "All histories in which turns of the watchdog loop are not interrupted; the counter is set without the lock, and three interleavings that break the claim are given."
  },
  {
   "property": "C68",
   "status": "partial",
   "theorems": [
    "Trax.C68_port_partial",
    "Trax.C68_wrap_false"
   ],
   "note": "All histories, except for port 65535, which is advertised as 9089."
  },
  {
   "property": "C69",
   "status": "partial",
   "theorems": [
    "Trax.C69_split_safe",
    "Trax.C69_words_partial",
    "Trax.C69_split_false"
   ],
   "note": "Splitting is safe for all strings, and right for all lists of words that are separated by spaces; other commands lose bytes or crash the constructor."
  },
  {
   "property": "C70",
   "status": "partial",
   "theorems": [
    "Trax.C70_trajectory_partial",
    "Trax.C70_trajectory_false"
   ],
   "note": "All lists of regions that survive one hop of the text format; witnesses for the others."
  },
  {
   "property": "C71",
   "status": "proved",
   "theorems": [
    "Trax.C71_float_round_trip",
    "Trax.C71_text_fits"
   ],
   "note": "all finite floats"
  },
  {
   "property": "C72",
   "status": "partial",
   "theorems": [
    "Trax.C72_in_range_partial",
    "Trax.C72_type_guard",
    "Trax.C72_out_of_range_false"
   ],
   "note": "In-range access proved; the index assertion is always true, so an index outside the polygon is undefined behaviour."
  },
  {
   "property": "C73",
   "status": "partial",
   "theorems": [
    "Trax.C73_legacy_false",
    "Trax.C73_rectangle_window_partial",
    "Trax.C73_centres_partial",
    "Trax.C73_half_false",
    "Trax.C73_thin_false"
   ],
   "note": "violated in legacy mode; proved in the default mode for integer rectangles within 2^23, and for rectangles between pixels (multiples of 2^-k) that exactly the pixels are marked whose centre is inside, except where a side goes through the centres of the first row or column of the window or the rectangle is thinner than a pixel (violated)"
  },
  {
   "property": "C74",
   "status": "proved",
   "theorems": [
    "Trax.C74_clone",
    "Trax.C74_clone_type"
   ],
   "note": "For well-formed regions (mask block matches its size)."
  },
  {
   "property": "C75",
   "status": "proved",
   "theorems": [
    "Trax.C75_set_get",
    "Trax.C75_type_guard"
   ],
   "note": "Refusal is a failed assert; asserts are taken as enabled."
  },
  {
   "property": "C76",
   "status": "proved",
   "theorems": [
    "Trax.C76_mask_rows"
   ],
   "note": "For well-formed masks."
  },
  {
   "property": "C77",
   "status": "partial",
   "theorems": [
    "Trax.C77_value_semantics_partial",
    "Trax.C77_write_mask_false",
    "Trax.C77_point_false"
   ],
   "note": "Holds for every program without self assignment, copies of moved-from objects and pixel writes to a shared object; pixel writes to a shared mask and polygon points set on a shared region of another type violate the claim."
  },
  {
   "property": "C78",
   "status": "partial",
   "theorems": [
    "Trax.C78_single_exchange_partial",
    "Trax.C78_caller_region",
    "Trax.C78_no_connection",
    "Trax.C78_empty_region_false"
   ],
   "note": "Every proper exchange works, except that the properties of the reply are lost (C65); an empty Region object in a reply is undefined behaviour."
  },
  {
   "property": "C79",
   "status": "partial",
   "theorems": [
    "Trax.C79_polygon_partial",
    "Trax.C79_outside_rows",
    "Trax.C79_point_false"
   ],
   "note": "All polygons and points with whole coordinates in a square of 4096 by 4096 around the origin; for larger coordinates the position of a side is rounded (C79_point_false). Points outside the rows of a polygon: all coordinates."
  },
  {
   "property": "C80",
   "status": "partial",
   "theorems": [
    "Trax.Cli.C80_run_partial",
    "Trax.Cli.C80_one_entry_per_frame",
    "Trax.Cli.C80_order",
    "Trax.Cli.C80_uninterrupted",
    "Trax.Cli.C80_truncate",
    "Trax.Cli.C80_short_list_false"
   ],
   "note": "For every tracker, sequence and configuration whose list of initialization regions covers the sequence; a shorter list (file given by -S) is read behind its end (C80_short_list_false)."
  },
  {
   "property": "C81",
   "status": "partial",
   "theorems": [
    "Trax.Cli.C81_one_time_per_frame_partial",
    "Trax.Cli.C81_skipped_false"
   ],
   "note": "Holds when every frame has an initialization region; skipped frames get no line (C81_skipped_false)."
  },
  {
   "property": "C82",
   "status": "partial",
   "theorems": [
    "Trax.C82_collects_partial",
    "Trax.C82_independent",
    "Trax.C82_arguments",
    "Trax.C82_limit_false"
   ],
   "note": "Texts shorter than 2 GiB less 4 KiB; at that length the size overflows (C82_limit_false). Release of the buffers is not modelled."
  },
  {
   "property": "C83",
   "status": "proved",
   "theorems": [
    "Trax.Lock.C83_exclusion",
    "Trax.Lock.C83_recursion",
    "Trax.Lock.C83_free",
    "Trax.Lock.C83_safe"
   ],
   "note": "Sequentially consistent memory is assumed: the code reads the owner without a lock."
  },
  {
   "property": "C84",
   "status": "partial",
   "theorems": [
    "Trax.Proc.C84_only_cause_partial",
    "Trax.Proc.C84_flag_false",
    "Trax.Proc.C84_watchdog_false"
   ],
   "note": "Proved: without a watchdog turn during the start and with a working waitpid, the only cause is a use before the first initialization. False in general: the flag is read before it is set; the watchdog deletes the process while it is started."
  },
  {
   "property": "C85",
   "status": "partial",
   "theorems": [
    "Trax.Proc.C85_order_partial",
    "Trax.Proc.C85_reset_false"
   ],
   "note": "Proved for programs that initialize after each call that started a process. The library's own check misses a process started by reset."
  },
  {
   "property": "C86",
   "status": "partial",
   "theorems": [
    "Trax.Proc.C86_first_partial",
    "Trax.Proc.C86_retry_false"
   ],
   "note": "Proved for calls with no running process. A refused tracker keeps running and is accepted by the next call."
  },
  {
   "property": "C87",
   "status": "partial",
   "theorems": [
    "Trax.Proc.C87_calls_partial",
    "Trax.Proc.C87_watchdog_partial",
    "Trax.Proc.C87_armed_false"
   ],
   "note": "The watchdog stays armed after a start without a connection."
  },
  {
   "property": "C88",
   "status": "partial",
   "theorems": [
    "Trax.Proc.C88_escalation_partial",
    "Trax.Proc.C88_stuck_false"
   ],
   "note": "A tracker that outlives SIGKILL is reported as ended normally."
  },
  {
   "property": "C89",
   "status": "partial",
   "theorems": [
    "Trax.TimedWait.C89_deadline_partial",
    "Trax.TimedWait.C89_second_false",
    "Trax.TimedWait.C89_long_false"
   ],
   "note": "Exact characterization of the limits that work; one second at a full second of the clock does not."
  },
  {
   "property": "C90",
   "status": "partial",
   "theorems": [
    "Trax.C90_exchange_partial",
    "Trax.C90_session_partial",
    "Trax.C90_start",
    "Trax.C90_exchange_false"
   ],
   "note": "Proved for all histories that begin with a start whose region is not special. A start with a special region aborts; a frame before the start is accepted by all calls, but its reply is read by the next exchange."
  },
  {
   "property": "C91",
   "status": "partial",
   "theorems": [
    "Trax.C91_single_sot_partial",
    "Trax.C91_single_sot_false"
   ],
   "note": "Proved for starts whose region is not special and frames after a start. A start with a special region aborts the client, and after a frame before the start the replies are read one exchange late (C91_single_sot_false)."
  },
  {
   "property": "C92",
   "status": "partial",
   "theorems": [
    "Trax.C92_lists_partial",
    "Trax.C92_copies_false",
    "Trax.C92_assign_false",
    "Trax.C92_moved_false",
    "Trax.C92_stale_false"
   ],
   "note": "Proved for programs that construct, set, get, receive into, swap, move and destroy lists. False for copies and assignments of lists (they share the C list; the assignment of an ObjectList to itself frees its list), for the use of lists that were moved from (their pointer is not set), and for lists that are received into again with fewer images."
  },
  {
   "property": "C93",
   "status": "partial",
   "theorems": [
    "Trax.C93_object_properties_false"
   ],
   "note": "The claim is false for every list, key and value: properties(i) returns a copy. Reading the properties of received lists is covered by C92."
  },
  {
   "property": "C94",
   "status": "partial",
   "theorems": [
    "Trax.Environ.C94_arguments_partial",
    "Trax.Environ.C94_arguments_false"
   ],
   "note": "Proved for arguments whose quotes come after apostrophes, that do not end in an apostrophe and have at most 1023 bytes; false for others."
  },
  {
   "property": "C95",
   "status": "proved",
   "theorems": [
    "Trax.Environ.C95_environment",
    "Trax.Environ.C95_switches"
   ],
   "note": "The names TRAX_SOCKET, TRAX_IN and TRAX_OUT are the subject of C96."
  },
  {
   "property": "C96",
   "status": "partial",
   "theorems": [
    "Trax.Environ.C96_socket",
    "Trax.Environ.C96_streams_partial",
    "Trax.Environ.C96_nested_false"
   ],
   "note": "The socket connection for all environments; the other two for environments without the names of the library, and false for others."
  },
  {
   "property": "C97",
   "status": "partial",
   "theorems": [
    "Trax.Fds.C97_standard",
    "Trax.Fds.C97_explicit_partial",
    "Trax.Fds.C97_explicit_false"
   ],
   "note": "Standard streams for all tables; dedicated descriptors if the error stream of the client is open, and false otherwise."
  },
  {
   "property": "C98",
   "status": "partial",
   "theorems": [
    "Trax.Fds.C98_ends_partial",
    "Trax.Fds.C98_end_false"
   ],
   "note": "Proved for stopped trackers without a later one; false for trackers that end by themselves and for several trackers."
  },
  {
   "property": "C99",
   "status": "partial",
   "theorems": [
    "Trax.Fds.C99_descriptors_partial",
    "Trax.Fds.C99_descriptors_false"
   ],
   "note": "Proved for all histories in which pipes are made and objects are destroyed; false otherwise."
  },
  {
   "property": "C100",
   "status": "proved",
   "theorems": [
    "Trax.C100_any_writing"
   ],
   "note": "7-bit text without NUL; the grammar is in Spec/Grammar.lean."
  },
  {
   "property": "C101",
   "status": "proved",
   "theorems": [
    "Trax.C101_broken_is_error"
   ],
   "note": "Messages that follow a broken one: see C11."
  },
  {
   "property": "C102",
   "status": "partial",
   "theorems": [
    "Trax.Cli.C102_size_partial",
    "Trax.Cli.C102_exif_false",
    "Trax.Cli.C102_memory_false"
   ],
   "note": "Proved for PNG, GIF and JFIF files given by a path; false for other JPEG files and for images in memory and in buffers."
  },
  {
   "property": "C103",
   "status": "partial",
   "theorems": [
    "Trax.Cli.C103_rows_partial",
    "Trax.Cli.C103_last_line_false"
   ],
   "note": "Proved for lines with a line break; a last line without one is lost."
  },
  {
   "property": "C104",
   "status": "partial",
   "theorems": [
    "Trax.Cli.C104_images_partial",
    "Trax.Cli.C104_images_false"
   ],
   "note": "False in general, since the arguments are swapped in the calls; proved for trackers for which this makes no difference."
  },
  {
   "property": "C105",
   "status": "partial",
   "theorems": [
    "Trax.C105_rectangle_partial",
    "Trax.C105_polygon_partial",
    "Trax.C105_special_partial",
    "Trax.C105_mask_partial",
    "Trax.C105_count_partial",
    "Trax.C105_rounding_false",
    "Trax.C105_names_false"
   ],
   "note": "Proved for all decimal numbers, with signs, exponents and any number of digits: up to eight decimals and below 2^24 the nearest single precision number is read, otherwise one that is nearest up to one part in 2^52 (the number is rounded twice, C105_rounding_false), beyond the range an infinite one. Hexadecimal numbers and the names of infinity and NaN are not part of the grammar of the theorems. Names that are nearly those of a format are accepted and counts that do not fit the name abort the process."
  },
  {
   "property": "C106",
   "status": "proved",
   "theorems": [
    "Trax.C106_format_lists",
    "Trax.C106_spaces"
   ],
   "note": "For words without blanks, which are delimiters of the first word only: spaces are skipped in front of a list and belong to the names elsewhere."
  },
  {
   "property": "C107",
   "status": "partial",
   "theorems": [
    "Trax.C107_declared_partial",
    "Trax.C107_custom_false"
   ],
   "note": "Without the custom properties, which Handle::metadata drops."
  },
  {
   "property": "C108",
   "status": "partial",
   "theorems": [
    "Trax.C108_value_semantics_partial",
    "Trax.C108_custom_false"
   ],
   "note": "For programs that set no custom property while the value is shared with a copy (copies share them), do not assign an object to itself and do not copy one that was moved from."
  },
  {
   "property": "C109",
   "status": "partial",
   "theorems": [
    "Trax.C109_value_semantics_partial",
    "Trax.C109_write_false",
    "Trax.C109_row_false"
   ],
   "note": "For programs that write no pixels while the value is shared with a copy, and write to the first row or to images of one column (see C29); no self assignment, no copy of an object that was moved from."
  },
  {
   "property": "C110",
   "status": "partial",
   "theorems": [
    "Trax.C110_parameters_partial",
    "Trax.C110_parameters_false"
   ],
   "note": "Without the formats, which can never be read, and the multi-object mode of a server with a version below 4, which is an uninitialised value."
  },
  {
   "property": "C111",
   "status": "partial",
   "theorems": [
    "Trax.C111_log_partial",
    "Trax.C111_lines_false"
   ],
   "note": "From the start of a tracker until it is to be stopped, lines shorter than 2 GiB; whole lines only if no line is longer than 255 bytes and no pause or message falls within a line."
  },
  {
   "property": "C112",
   "status": "partial",
   "theorems": [
    "Trax.C112_silent_partial",
    "Trax.C112_silent_false"
   ],
   "note": "For schedules in which nothing is left in the error stream when a tracker is stopped; what is left is written to the log."
  },
  {
   "property": "C113",
   "status": "partial",
   "theorems": [
    "Trax.C113_stopped_partial",
    "Trax.C113_stopped_false"
   ],
   "note": "If the last line has ended, at most 10240 bytes are left, no line is longer than 255 bytes and the logger thread has just read a whole line and reads no more; otherwise text is lost."
  },
  {
   "property": "C114",
   "status": "partial",
   "theorems": [
    "Trax.C114_files_partial",
    "Trax.C114_files_false"
   ],
   "note": "If the program never gets a descriptor at which the error stream of an earlier tracker was."
  },
  {
   "property": "C115",
   "status": "partial",
   "theorems": [
    "Trax.C115_colour_partial",
    "Trax.C115_back_partial",
    "Trax.C115_gray_false"
   ],
   "note": "Colour images and matrices; every grey one makes the functions throw."
  },
  {
   "property": "C116",
   "status": "partial",
   "theorems": [
    "Trax.C116_mask_partial",
    "Trax.C116_matrix_partial",
    "Trax.C116_mask_false"
   ],
   "note": "Masks with x = 0 and y not negative, and matrices without gaps between the rows; the part of the frame above the mask is not initialised."
  },
  {
   "property": "C117",
   "status": "partial",
   "theorems": [
    "Trax.C117_rect_partial",
    "Trax.C117_points_partial",
    "Trax.C117_rect_false"
   ],
   "note": "Coordinates up to 2^24 for the round trip of rectangles, at least three points; with larger rectangles, special regions and fewer points it fails."
  },
  {
   "property": "C118",
   "status": "partial",
   "theorems": [
    "Trax.C118_images_partial",
    "Trax.C118_arrays",
    "Trax.C118_images_false"
   ],
   "note": "Images with pixels in all three formats, and paths; arrays without restriction. A URL aborts, of an image in a buffer and of an empty array no image is made."
  },
  {
   "property": "C119",
   "status": "partial",
   "theorems": [
    "Trax.C119_numbers_partial",
    "Trax.C119_arrays_partial",
    "Trax.C119_masks_partial",
    "Trax.C119_regions_false"
   ],
   "note": "Rectangles, polygons, masks with a position that is not negative; for other masks memory is overwritten, special regions are refused on the way back."
  },
  {
   "property": "C120",
   "status": "partial",
   "theorems": [
    "Trax.C120_struct_partial",
    "Trax.C120_fields",
    "Trax.C120_cell_partial",
    "Trax.C120_properties_false"
   ],
   "note": "Structures for keys that are names of fields; cell arrays for exactly one property, all others are refused by the function that should read them."
  },
  {
   "property": "C121",
   "status": "partial",
   "theorems": [
    "Trax.C121_flags",
    "Trax.C121_names_partial",
    "Trax.C121_names_false"
   ],
   "note": "All lists of names; the list for the empty set is refused."
  },
  {
   "property": "C122",
   "status": "partial",
   "theorems": [
    "Trax.C122_lists_partial",
    "Trax.C122_lists_false"
   ],
   "note": "All non-empty combinations of images with pixels or paths; URLs abort, an empty list is refused, a channel that does not exist overwrites memory."
  },
  {
   "property": "C123",
   "status": "proved",
   "theorems": [
    "Trax.Opt.C123_getopt",
    "Trax.Opt.C123_every_line"
   ],
   "note": "For the getopt of the project, which is used where the compiler is not GNU C."
  },
  {
   "property": "C124",
   "status": "proved",
   "theorems": [
    "Trax.Opt.C124_settings"
   ],
   "note": "The reading of numbers is that of the C library. Operands with quotes are the subject of C94."
  },
  {
   "property": "C125",
   "status": "partial",
   "theorems": [
    "Trax.Opt.C125_settings_partial",
    "Trax.Opt.C125_repeat_false"
   ],
   "note": "All switches but -I, which uses a null pointer."
  },
  {
   "property": "C126",
   "status": "partial",
   "theorems": [
    "Trax.Tester.C126_image_partial",
    "Trax.Tester.C126_memory_false"
   ],
   "note": "Buffers and files; of an image in memory only a third is set."
  },
  {
   "property": "C127",
   "status": "partial",
   "theorems": [
    "Trax.Tester.C127_sessions_partial",
    "Trax.Tester.C127_perfect",
    "Trax.Tester.C127_last_image_false"
   ],
   "note": "The answer to the last image of a session is not waited for."
  },
  {
   "property": "C128",
   "status": "partial",
   "theorems": [
    "Trax.C128_setup_partial",
    "Trax.C128_setup_false"
   ],
   "note": "For texts without line ends and keys without the prefix trax.; a name without a value is read beyond the arguments."
  },
  {
   "property": "C129",
   "status": "partial",
   "theorems": [
    "Trax.C129_exchange_partial",
    "Trax.C129_exchange_false"
   ],
   "note": "Without properties in the reply, which the client never gets."
  },
  {
   "property": "C130",
   "status": "partial",
   "theorems": [
    "Trax.C130_unknown_partial",
    "Trax.C130_no_session_partial",
    "Trax.C130_client_quits_partial",
    "Trax.C130_tracker_quits_partial",
    "Trax.C130_life_false"
   ],
   "note": "quit without a reason during a session is undefined, and a second setup forgets the first session."
  },
  {
   "property": "C131",
   "status": "partial",
   "theorems": [
    "Trax.Mex.Client.C131_conversation_partial",
    "Trax.Mex.Client.C131_completes_partial",
    "Trax.Mex.Client.C131_properties_false"
   ],
   "note": "The properties are those of all answers: a property that an answer no longer has is still shown. In replies with cells of parameters the conversion may be undefined."
  },
  {
   "property": "C132",
   "status": "partial",
   "theorems": [
    "Trax.Mex.Client.C132_settings_partial",
    "Trax.Mex.Client.C132_errors_partial",
    "Trax.Mex.Client.C132_arguments_false"
   ],
   "note": "A name at the end without a value is ignored, whatever it is."
  },
  {
   "property": "C133",
   "status": "partial",
   "theorems": [
    "Trax.C133_from_map_partial",
    "Trax.C133_to_map_partial",
    "Trax.C133_map_round_trip_partial",
    "Trax.C133_listing_partial",
    "Trax.C133_nul_false"
   ],
   "note": "For programs like those of C64 and strings without NUL bytes; with them entries of a map are mixed up."
  },
  {
   "property": "C134",
   "status": "partial",
   "theorems": [
    "Trax.C134_user_files",
    "Trax.C134_no_descriptor_lost_partial",
    "Trax.C134_no_hello_false",
    "Trax.C134_setsockopt_false",
    "Trax.C134_descriptor_zero_false",
    "Trax.C134_connect_false"
   ],
   "note": "The first part (the files of the user) holds without restriction. Descriptors are lost if setsockopt fails, if the peer does not say hello, or if a socket gets descriptor 0; on the server side a failing setsockopt makes the setup hang."
  },
  {
   "property": "C135",
   "status": "proved",
   "theorems": [
    "Trax.C135_regions",
    "Trax.C135_images",
    "Trax.C135_channels",
    "Trax.C135_states"
   ],
   "note": ""
  },
  {
   "property": "C136",
   "status": "partial",
   "theorems": [
    "Trax.C136_utf8",
    "Trax.C136_refused",
    "Trax.C136_history_partial",
    "Trax.C136_foreign_partial",
    "Trax.C136_bytes_false",
    "Trax.C136_nul_false",
    "Trax.C136_item_false"
   ],
   "note": "Proved for texts without NUL and surrogates, with get and dict. p[key] always raises an exception; a value from C that is not UTF-8 is left out of the dictionary; texts with NUL are cut."
  },
  {
   "property": "C137",
   "status": "partial",
   "theorems": [
    "Trax.C137_arrays_partial",
    "Trax.C137_kinds",
    "Trax.C137_images",
    "Trax.C137_refused_partial",
    "Trax.C137_texts_partial",
    "Trax.C137_buffers_partial",
    "Trax.C137_shape_false",
    "Trax.C137_type_false",
    "Trax.C137_overflow_false",
    "Trax.C137_abort_false",
    "Trax.C137_names_false",
    "Trax.C137_path_false"
   ],
   "note": "Proved for all arrays of at most three dimensions. Grey arrays of two dimensions come back with three; signed numbers and the other byte order are taken for other values; with four dimensions the program writes beyond the image; empty arrays and data that is not a file end the process; the names of PNG and JPEG are exchanged; paths from C that are not UTF-8 raise an exception."
  },
  {
   "property": "C138",
   "status": "partial",
   "theorems": [
    "Trax.C138_special_partial",
    "Trax.C138_rectangles",
    "Trax.C138_polygons",
    "Trax.C138_masks_partial",
    "Trax.C138_mask_arrays",
    "Trax.C138_masks_refused",
    "Trax.C138_views_false",
    "Trax.C138_empty_false",
    "Trax.C138_normalize_false",
    "Trax.C138_get_false",
    "Trax.C138_code_false"
   ],
   "note": "Proved for rectangles and polygons outright, for masks of arrays stored row by row. Of views with other strides the mask has other pixels, or the program reads beyond the memory; Mask.get always raises an exception; negative offsets cannot be normalised; codes that are not an int are reduced."
  },
  {
   "property": "C139",
   "status": "partial",
   "theorems": [
    "Trax.C139_exchange_partial",
    "Trax.C139_session_partial",
    "Trax.C139_end_partial",
    "Trax.C139_client_end_partial",
    "Trax.C139_frame_false",
    "Trax.C139_reply_false",
    "Trax.C139_quit_false",
    "Trax.C139_reason_false",
    "Trax.C139_texts_false"
   ],
   "note": "Proved for all sessions of proper exchanges. A frame without an argument for the objects always raises an exception; the properties of a reply are dropped; quit inside of a with block makes the end of the block raise an exception; the server is not told the reason of the client; texts that are not ASCII are lost."
  },
  {
   "property": "C140",
   "status": "partial",
   "theorems": [
    "Trax.C140_start_partial",
    "Trax.C140_names",
    "Trax.C140_log_false",
    "Trax.C140_channels_false",
    "Trax.C140_declared_false",
    "Trax.C140_texts_false"
   ],
   "note": "Proved for all declarations of known formats, ASCII texts and custom properties outside the names of the library. A client without a log cannot be constructed; a list without channels ends the process of the tracker; special regions are not shown, a custom property named multiobject is replaced; a name that is not ASCII makes the client crash."
  },
  {
   "property": "C141",
   "status": "partial",
   "theorems": [
    "Trax.C141_file_partial",
    "Trax.C141_newline_false"
   ],
   "note": "Proved for connections whose writes do not fail, at every point of time and for every state of the buffer. A newline is logged that was not received when the connection ends within a message."
  },
  {
   "property": "C142",
   "status": "partial",
   "theorems": [
    "Trax.C142_messages_partial",
    "Trax.C142_file_partial",
    "Trax.C142_directory",
    "Trax.C142_nul_false",
    "Trax.C142_bounds_false",
    "Trax.C142_file_false",
    "Trax.C142_crash_false"
   ],
   "note": "Proved for texts in UTF-8 and connections whose writes do not fail. NUL characters are lost; ctypes reads beyond the one character that is passed; a FileLogger in the current directory cannot be made; its file may be empty until it is closed."
  },
  {
   "property": "C143",
   "status": "partial",
   "theorems": [
    "Trax.C143_convex_partial",
    "Trax.C143_rows_partial",
    "Trax.C143_near_convex_partial",
    "Trax.C143_near_rows_partial",
    "Trax.C143_half_false",
    "Trax.C143_level_false",
    "Trax.C143_parity_false",
    "Trax.C143_first_column_false",
    "Trax.C143_rounding_false",
    "Trax.C143_legacy_false"
   ],
   "note": "Proved in the default mode for polygons with whole corners up to 2^22: convex polygons in every row in which no slanted side meets a whole number between its ends, except for the first column of a window that begins right of a corner; and any polygon in rows that go through no corner and meet the sides in different pixels. Polygons with corners between pixels (multiples of 2^-k) are drawn like those with the nearest whole corners. The code violates the claim in the other cases: a corner inside a level side, two crossings in one pixel, the first column, rounding at whole numbers, corners in the middle between two pixels, legacy mode."
  },
  {
   "property": "C144",
   "status": "partial",
   "theorems": [
    "Trax.C144_safe",
    "Trax.C144_memory_partial",
    "Trax.C144_memory_false",
    "Trax.C144_server_gives",
    "Trax.C144_client_gives",
    "Trax.C144_quit_false"
   ],
   "note": "Safety is proved for every program. That exactly the reachable objects exist is proved for programs that do not create a polygon from a point with fewer than two coordinates and that do not receive the end of the session between the announcement of objects and their frame; it is proved that every other program loses an object. The answers assumed of the library are proved of the model of the library."
  },
  {
   "property": "C145",
   "status": "partial",
   "theorems": [
    "Trax.C145_drop_partial",
    "Trax.C145_drop_false",
    "Trax.C145_peer",
    "Trax.C145_quit",
    "Trax.C145_twice_false"
   ],
   "note": "Proved for sessions that quit or the peer has ended and for servers without log. The code violates the claim for open sessions with a log, which every client has: the log function is released before the handle, whose release calls it. A server that quits twice, as in a with block, raises an exception."
  },
  {
   "property": "C146",
   "status": "partial",
   "theorems": [
    "Trax.C146_client_partial",
    "Trax.C146_server_partial",
    "Trax.C146_call_partial",
    "Trax.C146_wait_mot_partial",
    "Trax.C146_wait_sot_partial",
    "Trax.C146_wait_client_partial",
    "Trax.C146_client_clean_partial",
    "Trax.C146_server_clean_partial",
    "Trax.C146_refused_false",
    "Trax.C146_restart_false",
    "Trax.C146_ended_false",
    "Trax.C146_polygon_false",
    "Trax.C146_variables_false"
   ],
   "note": "Proved for all histories and inputs: no block is released twice, the calls end as in the model without memory, and the number of blocks that are lost is given exactly (C146_client_partial, C146_server_partial); nothing is lost by clients of trackers that take polygons or no masks and by servers that wait with the single-object function. The code violates the claim: three blocks are lost for every initialize message without arguments, two for every wait after the end, one for every polygon turned into a mask, and the stream when the introduction is refused; when a wait fails the caller cannot tell whether the old image list was released."
  },
  {
   "property": "C147",
   "status": "partial",
   "theorems": [
    "Trax.Cli.C147_status",
    "Trax.Cli.C147_query",
    "Trax.Cli.C147_result_partial",
    "Trax.Cli.C147_uninterrupted_partial",
    "Trax.Cli.C147_missing_false",
    "Trax.Cli.C147_unwritable_false",
    "Trax.Cli.C147_bounds_false",
    "Trax.Cli.C147_size_false"
   ],
   "note": "Proved for every command line, file content, environment and tracker, except lists of initialization regions shorter than the sequence (undefined behaviour, C80_short_list_false). The code violates the claim: a missing groundtruth file and a result file that cannot be written end with status 0 and no result; with TRAX_BOUNDED_OVERLAP the bounds are one pixel too large and those of the image of the initialization, not of the frame that is judged."
  },
  {
   "property": "C148",
   "status": "partial",
   "theorems": [
    "Trax.C148_run_partial",
    "Trax.C148_single_partial",
    "Trax.C148_path_false"
   ],
   "note": "Proved for sequences of any length, start regions that are rectangles, polygons or masks, both versions of the tracker, any combination of channels, with and without the tracker's other output in the stream of the protocol, and for every schedule of the watchdog after the start. Missing: paths and properties outside of 7-bit text (the code does not deliver them: C148_path_false), overlaps below the threshold or inside image bounds, a tracker process ended from outside. The operating system's pipes are taken to be reliable."
  },
  {
   "property": "C149",
   "status": "partial",
   "theorems": [
    "Trax.Player.C149_ends_partial",
    "Trax.Player.C149_played_false"
   ],
   "note": "Proved: how each run ends. The claim itself is false for every input: traxplayer asks whether the tracker is ready before anything has started it (it never calls query), so that it ends with an error as soon as a region is confirmed; no process is ever created and nothing is sent (C149_played_false)."
  },
  {
   "property": "C150",
   "status": "partial",
   "theorems": [
    "Trax.Player.C150_dragged_partial",
    "Trax.Player.C150_dropped_partial",
    "Trax.Player.C150_cancel_false",
    "Trax.Player.C150_direction_false"
   ],
   "note": "Proved for all sequences of events: the region dragged last and not taken back is the result, with the rectangle between the two points for drags to the right and down. Other directions give negative sizes (C150_direction_false), and Q takes the region back but does not end the input (C150_cancel_false)."
  },
  {
   "property": "C151",
   "status": "partial",
   "theorems": [
    "Trax.Player.C151_settings_partial",
    "Trax.Player.C151_window_false"
   ],
   "note": "Proved for every command line. The switch -g, described in the help, is refused as unknown (C151_window_false); so is -G, which is accepted by getopt only."
  },
  {
   "property": "C152",
   "status": "partial",
   "theorems": [
    "Trax.Cv.C152_click_partial", "Trax.Cv.C152_selection_partial", "Trax.Cv.C152_empty_partial",
    "Trax.Cv.C152_declared_false",
    "Trax.Cv.C152_interactive_false",
    "Trax.Cv.C152_camshift_false",
    "Trax.Cv.C152_run_false"
   ],
   "note": "Proved: where a click puts the rectangle, what the tracker with CamShift takes from an initialization, and that it ends with an image that cannot be read. The rest is false: both programs pass the formats of images and regions to the constructor of Metadata in the wrong order, so that they announce URLs, polygons and masks. For every client, user and image the interactive tracker answers nothing (C152_interactive_false), the CamShift tracker no frame after the initialization (C152_camshift_false); a run of traxclient ends with an error (C152_run_false)."
  },
  {
   "property": "C153",
   "status": "partial",
   "theorems": [
    "Trax.C153_supervised_partial",
    "Trax.C153_run_partial",
    "Trax.C153_print_false",
    "Trax.C153_path_false"
   ],
   "note": "Proved for any two functions of a tracker in the documented loop, any lines they print and any run with failures and new starts: the result and the times are those of the relation Supervised (Spec/LoopRun). Violated for trackers that print a letter outside of ASCII or do not end a line before they report (C153_print_false), and for paths outside of ASCII (C153_path_false). Missing: the other texts outside of 7 bits, the bounded overlap, processes that the operating system ends, watchdog turns while a process starts (C84), image formats other than paths, and trackers that declare channels and formats for which traxclient does not load all images (C104)."
  },
  {
   "property": "C154",
   "status": "partial",
   "theorems": [
    "Trax.C154_quit_false",
    "Trax.C154_ready_false",
    "Trax.C154_crash_partial",
    "Trax.C154_crash_false"
   ],
   "note": "False of the code: after quit the handle of the client is not alive, so ready is false for every tracker that ends the session and traxclient always reports an error and loses the result (C154_quit_false for whole runs with any history, C154_ready_false for any state). A crash is reported as one if the tracker has answered before since its start, or if the operating system tells about it in time (C154_crash_partial); a crash in the first request with a late report is taken for a request to end the session (C154_crash_false)."
  },
  {
   "property": "C155",
   "status": "partial",
   "theorems": [
    "Trax.C155_drawn_partial",
    "Trax.C155_mask_false",
    "Trax.C155_vertices_false",
    "Trax.C155_width_false"
   ],
   "note": "Proved for empty and special regions, rectangles and polygons up to truncation of the vertices. False of the code: a mask is never drawn, every call throws; the vertices of polygons lose their fractions while rectangles are rounded; with width 0 polygons are filled and rectangles are not."
  },
  {
   "property": "C156",
   "status": "partial",
   "theorems": [
    "Trax.C156_log_partial",
    "Trax.C156_command_false"
   ],
   "note": "Proved for commands below 1006 bytes and directories below 1002. Beyond that print_debug uses its argument list a second time, which is undefined."
  },
  {
   "property": "C157",
   "status": "partial",
   "theorems": [
    "Trax.C157_quiet",
    "Trax.C157_interrupt_partial",
    "Trax.C157_later_false"
   ],
   "note": "the attribute that notes the interrupt is never reset, so that every later call raises KeyboardInterrupt, sends its request and does not read the answer"
  },
  {
   "property": "C158",
   "status": "partial",
   "theorems": [
    "Trax.C158_client_partial",
    "Trax.C158_client_same",
    "Trax.C158_server_partial",
    "Trax.C158_interrupted_false",
    "Trax.C158_metadata_false"
   ],
   "note": "violated for constructors that are interrupted (the handle is lost) and for custom properties that cannot be encoded (the description is lost)"
  },
  {
   "property": "C159",
   "status": "partial",
   "theorems": [
    "Trax.MapMem.C159_memory_partial",
    "Trax.MapMem.C159_self_append_false",
    "Trax.MapMem.C159_long_false",
    "Trax.MapMem.C159_enumerate_false"
   ],
   "note": "violated when an object is appended to itself (overlapping strcpy), for texts of 2^32 - 1 bytes and more, and for callbacks of the enumeration that add keys; proved for all other programs with texts below 2 GiB"
  },
  {
   "property": "C160",
   "status": "partial",
   "theorems": [
    "Trax.C160_answer_partial",
    "Trax.C160_other_false",
    "Trax.C160_missing_false",
    "Trax.C160_dead_false"
   ],
   "note": "violated for messages of types hello, initialize and frame, which count as the answer for an object, and when the tracker ends right after its introduction; proved for all other input"
  },
  {
   "property": "C161",
   "status": "partial",
   "theorems": [
    "Trax.C161_understood_partial",
    "Trax.C161_unknown_false",
    "Trax.C161_version_false",
    "Trax.C161_mask_false",
    "Trax.C161_documented_false"
   ],
   "note": "violated: one unknown name makes the client take the tracker for one that takes everything (also for the documented name data and for channels separated by commas), and every version is accepted; proved for introductions with versions 1 to 4 and known names only"
  },
  {
   "property": "C162",
   "status": "partial",
   "theorems": [
    "Trax.C162_reported_partial",
    "Trax.C162_wait_false",
    "Trax.C162_closed_false",
    "Trax.C162_number_false"
   ],
   "note": "violated: the wait of the client never changes the text, failures in what the peer sent mostly leave none, and texts with numbers are indeterminate; proved for all calls that are not allowed, for what the client sends, for successes of all other calls and for questions"
  },
  {
   "property": "C163",
   "status": "partial",
   "theorems": [
    "Trax.C163_memory_partial",
    "Trax.C163_balanced_partial",
    "Trax.C163_leak_false"
   ],
   "note": "violated: every conversion of a polygon to a mask loses one block; proved for all programs that this is the only loss and that nothing is used or released after its release"
  },
  {
   "property": "C164",
   "status": "partial",
   "theorems": [
    "Trax.C164_values",
    "Trax.C164_memory",
    "Trax.C164_shared",
    "Trax.C164_clear_false",
    "Trax.C164_stale_false"
   ],
   "note": "violated: a list with the same image for two channels cannot be cleared, and releasing an image leaves a stale pointer in the lists that have it; the rest is proved for all programs"
  },
  {
   "property": "C165",
   "status": "partial",
   "theorems": [
    "Trax.C165_send_partial",
    "Trax.C165_refused_partial",
    "Trax.C165_server_partial",
    "Trax.C165_end",
    "Trax.C165_wait_false",
    "Trax.C165_closed_false",
    "Trax.C165_number_false"
   ],
   "note": "violated: no failure while a client waits is explained (initialize gives no explanation at all, frame says Unknown), nor the end of the connection to a server, and explanations with numbers are indeterminate; proved for all failures before a request is sent, all replies and waits that are not allowed, and for the reason of the server"
  },
  {
   "property": "C166",
   "status": "partial",
   "theorems": [
    "Trax.C166_supervised_partial",
    "Trax.C166_raises_partial",
    "Trax.C166_static_partial",
    "Trax.C166_quit_false",
    "Trax.C166_answer_false",
    "Trax.C166_name_false"
   ],
   "note": "violated: a tracker that leaves the loop is taken for one that has crashed, and names and properties with letters outside of ASCII break the run; proved for declarations and dictionaries of 7-bit text, under the conditions of C153 and C154"
  },
  {
   "property": "C167",
   "status": "partial",
   "theorems": [
    "Trax.C167_finished_partial",
    "Trax.C167_died_partial",
    "Trax.C167_countdown_partial"
   ],
   "note": "proved for all trackers, crash points and schedules under the conditions of C153; not covered: writing a request into the pipe of an ended process fails or raises SIGPIPE"
  },
  {
   "property": "C168",
   "status": "partial",
   "theorems": [
    "Trax.C168_lesson_partial",
    "Trax.C168_errors_false",
    "Trax.C168_quit_false"
   ],
   "note": "proved for trackers that answer; the part about the end of a session is false: ready() is false after the tracker has ended the session, so the loop goes on and the next request throws an exception that is not caught"
  },
  {
   "property": "C169",
   "status": "partial",
   "theorems": [
    "Trax.Ncc.C169_images_partial",
    "Trax.Ncc.C169_images_false",
    "Trax.Ncc.C169_region_partial",
    "Trax.Ncc.C169_region_false",
    "Trax.Ncc.C169_result_partial",
    "Trax.Ncc.C169_empty_false",
    "Trax.Ncc.C169_template_partial",
    "Trax.Ncc.C169_template_false"
   ],
   "note": "proved for lists whose lines all have an end, regions with four numbers and regions that touch the image; false otherwise: a list whose last line has no end is read for ever, missing numbers are repeated, an empty list is undefined, and the template leaves out the last column and row of the image"
  },
  {
   "property": "C170",
   "status": "partial",
   "theorems": [
    "Trax.Ncc.C170_search",
    "Trax.Ncc.C170_still_partial",
    "Trax.Ncc.C170_border_false",
    "Trax.Ncc.C170_small_partial",
    "Trax.Ncc.C170_small_false"
   ],
   "note": "the search is proved as claimed; the parts about objects that do not move and images that are too small are proved for regions that are not over the left or upper border and false for those: the result is moved to the border, or by one pixel"
  },
  {
   "property": "C171",
   "status": "partial",
   "theorems": [
    "Trax.NccMatlab.C171_search_partial",
    "Trax.NccMatlab.C171_still_partial",
    "Trax.NccMatlab.C171_border_false",
    "Trax.NccMatlab.C171_whole_false",
    "Trax.NccMatlab.C171_polygon",
    "Trax.NccMatlab.C171_polygon_false"
   ],
   "note": "proved for regions inside of the image that leave a place to compare; false for objects at the right or lower border (the last place is not compared), for regions as wide as the image (error) and for polygons (the result has no room for them)"
  },
  {
   "property": "C172",
   "status": "partial",
   "theorems": [
    "Trax.Child.C172_status_partial",
    "Trax.Child.C172_signals",
    "Trax.Child.C172_reaped_partial",
    "Trax.Child.C172_zombie_false",
    "Trax.Child.C172_restart_false"
   ],
   "note": "the replies are proved for one start, signals for all sequences of calls; false: a process that still runs when the object is destroyed stays as a zombie, and an object cannot be started again after the end of its process is known, and then loses its status"
  },
  {
   "property": "C173",
   "status": "partial",
   "theorems": [
    "Trax.Timer.C173_elapsed_partial",
    "Trax.Timer.C173_parts",
    "Trax.Timer.C173_init_false"
   ],
   "note": "proved after timer_init; without it the public functions divide by zero"
  },
  {
   "property": "C174",
   "status": "partial",
   "theorems": [
    "Trax.MexStream.C174_order_partial",
    "Trax.MexStream.C174_push_partial",
    "Trax.MexStream.C174_zero_false",
    "Trax.MexStream.C174_end_false",
    "Trax.MexStream.C174_failure"
   ],
   "note": "proved for all interleavings and texts without zeros: console and buffer together hold everything; false: what follows a zero is lost, and what is logged while the tracker is stopped is not printed unless there was an error"
  },
  {
   "property": "C175",
   "status": "partial",
   "theorems": [
    "Trax.ClientLocks.C175_ends_partial",
    "Trax.ClientLocks.C175_register_false"
   ],
   "note": "proved for all calls, turns and fair schedules; false if a callback of the watchdog registers a callback: the watchdog waits for itself, and the destructor for the watchdog"
  },
  {
   "property": "C176",
   "status": "partial",
   "theorems": [
    "Trax.Debug.C176_prefix",
    "Trax.Debug.C176_silent",
    "Trax.Debug.C176_written_partial",
    "Trax.Debug.C176_environment_false"
   ],
   "note": "false when debugging is switched on by the environment or when the library was built: the stream is a null pointer then"
  },
  {
   "property": "C177",
   "status": "partial",
   "theorems": [
    "Trax.Resources.C177_copy_partial",
    "Trax.Resources.C177_pieces_partial",
    "Trax.Resources.C177_missing",
    "Trax.Resources.C177_there",
    "Trax.Resources.C177_failed_false",
    "Trax.Resources.C177_plain_false",
    "Trax.Resources.C177_overrun_false",
    "Trax.Resources.C177_stop"
   ],
   "note": "the decompressor is a parameter with a contract; false for data that cannot be decompressed, and for tester_get_resource without compression"
  },
  {
   "property": "C178",
   "status": "partial",
   "theorems": [
    "Trax.Py.C178_memory_partial",
    "Trax.Py.C178_mask", "Trax.Py.C178_rectangle", "Trax.Py.C178_counts", "Trax.Py.C178_labels",
    "Trax.Py.C178_path_false",
    "Trax.Py.C178_format_false",
    "Trax.Py.C178_unknown_false"
   ],
   "note": "false for files and URLs (the text has b and quotes of its own), for encoded images (JPEG and PNG are confused) and for encoded images of another type (KeyError); how a float is written is a parameter"
  }
 ]
}