{"id": "C01", "title": "Message round trip", "statement": "A message (type, arguments, properties) written by one endpoint is read by the other endpoint as exactly the same type, the same arguments in the same order and the same key/value pairs, and reading stops exactly at the end of that message.", "quantifier": "every message type, every list of arguments and every property set whose text is 7-bit and non-NUL, whose arguments do not look like key=value and whose keys are valid protocol keys; every content of the stream after the message; every previous state of the reader", "why_tests_cant": "The space of argument/value strings and escape placements is unbounded; a test exercises a handful of strings.", "anchors": ["src/message.c:read_message", "src/message.c:write_message", "src/message.c:write_buffer_escaped"]}
{"id": "C02", "title": "A stream of messages is delivered in order, without loss, duplication or merging", "statement": "If messages m1..mn are written one after the other to a stream, then n successive reads on the other side return m1..mn in order, each with only its own arguments and properties.", "quantifier": "every finite sequence of well-formed messages (as in C01)", "why_tests_cant": "Needs induction over histories of arbitrary length.", "anchors": ["src/message.c:read_message", "src/message.c:write_message"]}
{"id": "C03", "title": "Delivery does not depend on how the transport splits the bytes", "statement": "The sequence of messages (and the logged text) obtained by reading does not depend on how the operating system splits the incoming bytes into read()/recv() results.", "quantifier": "every byte stream and every two ways of cutting it into non-empty chunks, any number of reads", "why_tests_cant": "There are exponentially many chunkings; tests see whatever the kernel happens to produce.", "anchors": ["src/message.c:read_character", "src/message.c:read_message"]}
{"id": "C04", "title": "Short writes never corrupt the wire", "statement": "However the operating system splits the writes (including zero-length and partial ones), if no write fails then the bytes put on the wire are exactly the serialised message, and the logger is given exactly these bytes.", "quantifier": "every message, every schedule of partial write results without an error", "why_tests_cant": "Partial-write schedules are chosen by the kernel and cannot be enumerated.", "anchors": ["src/message.c:write_buffer", "src/message.c:write_buffer_escaped", "src/message.c:write_message"]}
{"id": "C05", "title": "A failed write is reported and leaves a prefix of the message", "statement": "If the transport fails during a write, then what was sent is a prefix of the message, nothing after the failure is sent and the API call reports the failure.", "quantifier": "every message and every position at which a write fails", "why_tests_cant": "Needs all fault positions of all messages.", "anchors": ["src/message.c:write_buffer", "src/message.c:write_message", "src/trax.c:trax_client_frame"]}
{"id": "C06", "title": "Payload cannot escape its message", "statement": "Whatever bytes arguments and property values contain, the serialised message contains exactly one line break, as its last byte, and starts with the protocol prefix: no payload can end a message early or inject another message.", "quantifier": "every argument and value byte string; every valid property key", "why_tests_cant": "Injection safety quantifies over all byte strings.", "anchors": ["src/message.c:write_message", "src/message.c:write_buffer_escaped", "src/message.c:__output_properties"]}
{"id": "C07", "title": "Escaping is unambiguous", "statement": "Two different messages (of the class of C01) never have the same serialised form: type, argument list and property set can be recovered from the bytes.", "quantifier": "every pair of messages", "why_tests_cant": "Injectivity ranges over pairs of unbounded strings.", "anchors": ["src/message.c:write_message"]}
{"id": "C08", "title": "Foreign output between messages is ignored", "statement": "Lines printed to the stream that do not start with the protocol prefix are skipped and do not change which messages are read, nor their contents.", "quantifier": "every finite sequence of foreign lines before/between messages", "why_tests_cant": "Trackers print arbitrary text of arbitrary length on the shared stdout.", "anchors": ["src/message.c:read_message", "docs/protocol.rst"]}
{"id": "C09", "title": "Foreign output may contain any bytes", "statement": "Skipping foreign output also works when the foreign lines contain bytes above 127 (UTF-8 text, binary).", "quantifier": "every foreign line over all 256 byte values", "why_tests_cant": "Depends on all byte values in all reader states, including the state left by earlier messages.", "anchors": ["src/message.c:read_character", "src/message.c:read_message"]}
{"id": "C10", "title": "End of stream yields an error, never a message that was not sent", "statement": "When the peer closes the connection (or a read fails), the next read reports an error; it never returns a message that the peer did not send.", "quantifier": "every history of previously read messages, every truncation point of the stream", "why_tests_cant": "Needs every history and every crash point of the peer.", "anchors": ["src/message.c:read_message", "src/message.c:read_character"]}
{"id": "C11", "title": "A malformed or unknown message does not damage its neighbours", "statement": "A line with the protocol prefix that is malformed or has an unknown message type is skipped as a whole: the following messages are read as if the line were not there.", "quantifier": "every malformed line, in every position between well-formed messages", "why_tests_cant": "Error-recovery must hold from every parser state and for every continuation.", "anchors": ["src/message.c:read_message"]}
{"id": "C12", "title": "8-bit payload transparency", "statement": "Arguments and property values containing bytes above 127 (for example UTF-8 paths) are delivered unchanged.", "quantifier": "every message with arbitrary non-NUL bytes in arguments and values", "why_tests_cant": "All byte values at all positions.", "anchors": ["src/message.c:read_character", "src/message.c:read_message"]}
{"id": "C13", "title": "Arguments and properties are never confused", "statement": "A string passed as an argument is received as an argument, and a property is received as a property with the same key.", "quantifier": "every argument string and every property key/value", "why_tests_cant": "Requires a characterisation over all strings.", "anchors": ["src/message.c:read_message", "src/message.c:__is_valid_key"]}
{"id": "C14", "title": "Only valid keys reach the wire", "statement": "Setting a property whose key is not a valid protocol key is refused, so that it cannot corrupt the message it is sent with.", "quantifier": "every key string", "why_tests_cant": "Quantifies over all key strings.", "anchors": ["src/trax.c:trax_properties_set", "src/message.c:__output_properties", "docs/api_c.rst"]}
{"id": "C15", "title": "Reading always terminates and consumes input", "statement": "A read call returns after consuming a finite prefix of the input; as long as the input is not exhausted each call consumes at least one byte, and what it leaves is a suffix of the input.", "quantifier": "every byte stream and reader state", "why_tests_cant": "Termination over all inputs.", "anchors": ["src/message.c:read_message"]}
{"id": "C16", "title": "Properties behave as a map", "statement": "After any sequence of set/clear operations, get returns the value last set for that key (or nothing when there is none), 'has' agrees with get, and operations on other keys do not interfere, whatever the keys hash to.", "quantifier": "every history of operations, every key and value (including empty strings and colliding keys)", "why_tests_cant": "Unbounded histories and hash collisions.", "anchors": ["src/strmap.c:sm_put", "src/strmap.c:sm_get", "src/trax.c:trax_properties_set", "src/trax.c:trax_properties_get", "src/trax.c:trax_properties_has", "src/trax.c:trax_properties_clear"]}
{"id": "C17", "title": "Count and enumeration are exact", "statement": "After any history, enumeration calls the callback exactly once for each key currently in the map, with its current value, and count is the number of those calls.", "quantifier": "every history of operations", "why_tests_cant": "Unbounded histories and hash collisions.", "anchors": ["src/strmap.c:sm_enum", "src/strmap.c:sm_get_count", "src/trax.c:trax_properties_count"]}
{"id": "C18", "title": "Copying properties", "statement": "A copy of a property set has the same contents, and later changes of the copy do not affect the original (and conversely).", "quantifier": "every property set and later history", "why_tests_cant": "Unbounded histories.", "anchors": ["src/trax.c:trax_properties_copy", "src/trax.c:copy_properties"]}
{"id": "C19", "title": "Appending properties honours the overwrite flag", "statement": "trax_properties_append(source, drain, overwrite) adds all pairs of source to drain; keys already in drain keep their value when overwrite is 0 and take the value of source otherwise.", "quantifier": "every source, every drain, both values of the flag", "why_tests_cant": "All pairs of overlapping maps.", "anchors": ["src/trax.c:trax_properties_append", "src/trax.c:copy_properties"]}
{"id": "C20", "title": "Integer properties round trip", "statement": "A property set as an integer reads back as the same integer, also after being sent in a message.", "quantifier": "every 32-bit integer, every key, every default value", "why_tests_cant": "2^32 values; also depends on text conversion through floating point.", "anchors": ["src/trax.c:trax_properties_set_int", "src/trax.c:trax_properties_get_int"]}
{"id": "C21", "title": "Reading an integer/float property always gives the value or the default", "statement": "trax_properties_get_int/get_float return the numeric value of the stored text, or the given default when the key is missing or the text is not a number.", "quantifier": "every stored text, including the empty string", "why_tests_cant": "All strings; includes an undefined-behaviour case that tests may not notice.", "anchors": ["src/trax.c:trax_properties_get_int", "src/trax.c:trax_properties_get_float"]}
{"id": "C22", "title": "Base64 round trip", "statement": "Decoding the encoding of a byte sequence yields the same bytes and length, and the encoded text uses only the Base64 alphabet with padding.", "quantifier": "every finite byte sequence", "why_tests_cant": "Unbounded inputs, three residue classes.", "anchors": ["src/base64.c:base64encode", "src/base64.c:base64decode"]}
{"id": "C23", "title": "Base64 buffer sizes", "statement": "The declared encode length is exactly the number of characters written including the terminator; the declared decode length is exactly what is written when decoding an encoded text, and for any text the decoder writes at most one byte more than declared.", "quantifier": "every byte sequence; every input text", "why_tests_cant": "Buffer-overflow freedom needs all inputs.", "anchors": ["src/base64.c:base64encodelen", "src/base64.c:base64decodelen"]}
{"id": "C24", "title": "Path images round trip", "statement": "An image given as a file-system path is received as a path image with exactly the same path.", "quantifier": "every path string", "why_tests_cant": "All strings, including ones that look like URIs.", "anchors": ["src/trax.c:image_encode", "src/trax.c:image_decode"]}
{"id": "C25", "title": "URL images round trip", "statement": "An image given as a URL is received as a URL image with exactly the same URL.", "quantifier": "every URL with a scheme that is not file, image or data", "why_tests_cant": "All URLs.", "anchors": ["src/trax.c:image_decode"]}
{"id": "C26", "title": "Memory images round trip", "statement": "A raw in-memory image is received with the same width, height, format and pixel data, and decoding never writes outside the allocated pixel buffer.", "quantifier": "every width, height >= 1, format and pixel content", "why_tests_cant": "Unbounded pixel data; memory safety.", "anchors": ["src/trax.c:image_encode", "src/trax.c:image_decode"]}
{"id": "C27", "title": "Buffer images round trip", "statement": "An encoded (JPEG/PNG) image buffer is received with the same bytes, the same length and the same format.", "quantifier": "every buffer accepted by trax_image_create_buffer", "why_tests_cant": "Unbounded data.", "anchors": ["src/trax.c:image_decode", "src/trax.c:trax_image_create_buffer"]}
{"id": "C28", "title": "Image decoding is safe on arbitrary text", "statement": "Decoding any text received from the peer as an image either yields an image or fails; it never writes or reads out of bounds and never aborts the process.", "quantifier": "every text", "why_tests_cant": "All adversarial inputs.", "anchors": ["src/trax.c:image_decode", "src/trax.c:parse_uri", "src/base64.c"]}
{"id": "C29", "title": "Rows of a memory image are disjoint and in bounds", "statement": "The row accessors of a memory image give, for every row, a range of width*bytes-per-pixel bytes inside the image buffer; different rows do not overlap and row r starts at pixel (0,r).", "quantifier": "every width, height, format and row", "why_tests_cant": "All image sizes.", "anchors": ["src/trax.c:trax_image_write_memory_row", "src/trax.c:trax_image_get_memory_row"]}
{"id": "C30", "title": "Format and channel sets round trip", "statement": "The textual form of a set of region formats, image formats or channels decodes to the same set, and fits the buffer the library uses for it.", "quantifier": "every bit set", "why_tests_cant": "All sets, also with unknown bits; buffer bound.", "anchors": ["src/trax.c:region_formats_encode", "src/trax.c:image_formats_encode", "src/trax.c:channels_encode"]}
{"id": "C31", "title": "Handshake transfers the metadata", "statement": "After the server's introduction the client knows the server's protocol version, region and image formats, channels, name, description, family, multi-object support and all custom properties, exactly as the server declared them.", "quantifier": "every metadata record and protocol version 1..4 with 7-bit text", "why_tests_cant": "All metadata values, interaction of custom keys with reserved keys.", "anchors": ["src/trax.c:server_setup", "src/trax.c:client_setup"]}
{"id": "C32", "title": "Handshake rejects anything but an introduction", "statement": "Client setup succeeds only if the first message is a hello message without positional arguments; otherwise no handle is returned.", "quantifier": "every first message", "why_tests_cant": "All inputs.", "anchors": ["src/trax.c:client_setup"]}
{"id": "C33", "title": "Handshake is safe for every peer", "statement": "Client setup never causes undefined behaviour or aborts, whatever introduction the peer sends.", "quantifier": "every introduction message", "why_tests_cant": "All adversarial inputs.", "anchors": ["src/trax.c:client_setup", "src/trax.c:region_formats_decode"]}
{"id": "C34", "title": "Special region codes round trip", "statement": "A special region is decoded with the same integer code it was encoded with.", "quantifier": "every 32-bit code", "why_tests_cant": "2^32 codes, goes through single-precision floating point.", "anchors": ["src/region.c:region_string", "src/region.c:region_parse"]}
{"id": "C35", "title": "Mask round trip", "statement": "A mask region is decoded with the same offset and size, and the same set of foreground pixels.", "quantifier": "every offset, size and pixel content", "why_tests_cant": "2^(w*h) masks of unbounded size.", "anchors": ["src/region.c:region_string", "src/region.c:region_parse"]}
{"id": "C36", "title": "Rectangle and polygon precision", "statement": "A rectangle or polygon is decoded as a region of the same kind with the same number of points, each coordinate within 0.00005 of the original up to single-precision rounding.", "quantifier": "every finite coordinate value, every number of points", "why_tests_cant": "All float values.", "anchors": ["src/region.c:region_string", "src/region.c:region_parse"]}
{"id": "C37", "title": "Re-encoding is stable", "statement": "Encoding a decoded region gives the same text again, so a region can pass through any number of hops without drifting.", "quantifier": "every region text produced by the encoder", "why_tests_cant": "All values, any number of hops.", "anchors": ["src/region.c:region_string", "src/region.c:region_parse"]}
{"id": "C38", "title": "Region parsing is safe on arbitrary text", "statement": "Parsing any text received from the peer as a region either yields a region or fails; it never accesses memory out of bounds, never aborts and never reports success without a region.", "quantifier": "every text", "why_tests_cant": "All adversarial inputs.", "anchors": ["src/region.c:region_parse", "src/region.c:_parse_sequence"]}
{"id": "C39", "title": "Unsupported regions are converted to a supported format", "statement": "When the tracker does not support the format of a given region, the region that is sent has a format that the tracker declared.", "quantifier": "every region, every set of supported formats", "why_tests_cant": "All combinations.", "anchors": ["src/trax.c:region_autoconvert", "src/trax.c:trax_client_frame"]}
{"id": "C40", "title": "Bounds contain the region and are tight", "statement": "The bounds of a polygon contain all its points and touch them on all four sides; the bounds of a mask and of a rectangle contain exactly their pixels tightly; every position is inside the bounds of a special region.", "quantifier": "every polygon, every mask with foreground, every rectangle with a pixel, every special region", "why_tests_cant": "All sizes.", "anchors": ["src/region.c:compute_bounds_polygon", "src/region.c:compute_bounds_mask", "src/region.c:region_compute_bounds", "src/trax.c:trax_region_bounds"]}
{"id": "C41", "title": "Conversion to a rectangle gives the bounding box", "statement": "Converting a polygon or a mask to a rectangle gives the axis-aligned bounding box of the region.", "quantifier": "every polygon, every mask with foreground", "why_tests_cant": "All coordinates including negative ones.", "anchors": ["src/region.c:region_convert"]}
{"id": "C42", "title": "Rectangle to polygon and back is the identity", "statement": "Converting a rectangle to a polygon and back to a rectangle returns the original rectangle.", "quantifier": "every rectangle", "why_tests_cant": "All coordinates; both rasterisation modes.", "anchors": ["src/region.c:region_convert"]}
{"id": "C43", "title": "Conversion to a mask marks the pixels of the region", "statement": "Converting a polygon or rectangle to a mask yields a mask placed over the region whose pixels equal the rasterised region at the same image coordinates.", "quantifier": "every polygon and rectangle", "why_tests_cant": "All shapes.", "anchors": ["src/region.c:region_convert", "src/region.c:region_get_mask_offset"]}
{"id": "C44", "title": "Window extraction from a mask", "statement": "Extracting a window of a mask region gives, for each pixel of the window, the mask's value at that image position and 0 outside the mask, and touches no memory outside either buffer.", "quantifier": "every mask, every window position and size", "why_tests_cant": "All relative positions and overlaps.", "anchors": ["src/region.c:region_get_mask_offset"]}
{"id": "C45", "title": "Point containment", "statement": "A point is contained in a rectangle iff its coordinates lie within it, and contained in a mask iff the pixel under it is foreground; the test reads no memory outside the mask.", "quantifier": "every point, every rectangle and mask", "why_tests_cant": "All coordinates including negative and fractional.", "anchors": ["src/region.c:region_contains_point", "src/region.c:point_in_mask"]}
{"id": "C46", "title": "Rasterisation stays in bounds", "statement": "Rasterising any polygon into any window writes only inside the window buffer, marks only 0/1 values, and uses a node buffer no larger than the number of points.", "quantifier": "every polygon (also self-intersecting, degenerate, partly or fully outside), every window size, both modes", "why_tests_cant": "Memory safety over all shapes.", "anchors": ["src/region.c:rasterize_polygon"]}
{"id": "C47", "title": "Scan-line nodes are sorted", "statement": "The in-place sort used in rasterisation terminates and yields the ascending permutation of the scan-line intersections.", "quantifier": "every list of intersections", "why_tests_cant": "All lists; termination.", "anchors": ["src/region.c:rasterize_polygon"]}
{"id": "C48", "title": "Overlap is a symmetric ratio in [0,1]", "statement": "The overlap of two regions lies in [0,1]; swapping the regions gives the same overlap and swaps the exclusive parts; overlap plus the two exclusive parts is 1 whenever they are computed.", "quantifier": "every two regions, every bounds", "why_tests_cant": "All pairs of regions.", "anchors": ["src/region.c:region_compute_overlap", "src/region.c:compute_polygon_overlap"]}
{"id": "C49", "title": "Overlap equals the Jaccard index of the pixels", "statement": "For regions compared on a common window, the reported overlap is the number of pixels in both divided by the number of pixels in either, counting only the pixels inside the bounds that are given; identical regions with pixels have overlap 1, disjoint ones 0, and so do regions of which one has no pixel inside the bounds.", "quantifier": "every two rasterised regions, every bounds", "why_tests_cant": "All pixel sets.", "anchors": ["src/region.c:region_compute_overlap"]}
{"id": "C50", "title": "Object lists", "statement": "An object list of size n has n region slots and n property sets; set stores a copy readable by get, out-of-range access has no effect, append concatenates copies, and later changes to the source regions do not affect the list.", "quantifier": "every history of list operations", "why_tests_cant": "Unbounded histories.", "anchors": ["src/trax.c:trax_object_list_create", "src/trax.c:trax_object_list_set", "src/trax.c:trax_object_list_append"]}
{"id": "C51", "title": "Image lists and channel counting", "statement": "An image list stores one image per channel, channels do not interfere, unknown channels are refused; the channel count equals the number of channels in the set, for every channel set.", "quantifier": "every history of image-list operations, every 32-bit channel set", "why_tests_cant": "All histories / 2^32 sets; termination of the bit-count loop.", "anchors": ["src/trax.c:trax_image_list_get", "src/trax.c:trax_image_list_set", "src/trax.c:trax_image_list_count"]}
{"id": "C52", "title": "Termination is idempotent", "statement": "Terminating a handle sends exactly one quit message; terminating (or cleaning up) again sends nothing and still succeeds; afterwards the handle is not alive.", "quantifier": "every history of calls containing any number of terminations", "why_tests_cant": "Unbounded histories.", "anchors": ["src/trax.c:trax_terminate", "src/trax.c:trax_cleanup", "src/trax.c:trax_is_alive"]}
{"id": "C53", "title": "A terminated handle never communicates", "statement": "After a handle has sent or received quit, no call on it reads from or writes to the stream, all communication calls report an error, and it never becomes alive again.", "quantifier": "every history of calls after termination", "why_tests_cant": "Unbounded histories.", "anchors": ["src/trax.c:trax_client_wait", "src/trax.c:trax_client_frame", "src/trax.c:trax_server_wait_mot", "src/trax.c:trax_server_reply_mot", "src/trax.c:trax_terminate"]}
{"id": "C54", "title": "Replies match the number of tracked objects", "statement": "A server reply is accepted only if it has exactly one entry per tracked object (exactly one in single-object mode); a refused reply sends nothing, and an accepted one sends exactly one state message per object, in order.", "quantifier": "every handle state and object list", "why_tests_cant": "All states and list sizes.", "anchors": ["src/trax.c:trax_server_reply_mot"]}
{"id": "C55", "title": "Client and server agree on the number of objects", "statement": "In a session where both sides use the library, after every completed exchange client and server track the same number of objects, so that a wait on the client consumes exactly the state messages of one server reply.", "quantifier": "every history of initialize/frame/reply exchanges, any number of objects", "why_tests_cant": "Unbounded histories of a distributed state machine.", "anchors": ["src/trax.c:trax_client_initialize", "src/trax.c:trax_client_frame", "src/trax.c:trax_client_wait", "src/trax.c:trax_server_wait_mot", "src/trax.c:trax_server_reply_mot"]}
{"id": "C56", "title": "An exchange transfers objects, images and properties", "statement": "What the client passes to initialize/frame is what the server's wait returns: the same number of objects in the same order with their properties, one image per channel, and the frame properties; what the server replies is what the client's wait returns.", "quantifier": "every object list, image list and property set of the supported kinds", "why_tests_cant": "All inputs.", "anchors": ["src/trax.c:trax_client_frame", "src/trax.c:trax_server_wait_mot", "src/trax.c:trax_client_wait", "src/trax.c:trax_server_reply_mot"]}
{"id": "C57", "title": "A refused frame has no effect", "statement": "If initialize/frame returns an error, nothing was sent and the client's view of the tracked objects is unchanged, so the session can continue.", "quantifier": "every handle state and every argument that makes the call fail", "why_tests_cant": "All failing inputs in all states.", "anchors": ["src/trax.c:trax_client_initialize", "src/trax.c:trax_client_frame"]}
{"id": "C58", "title": "Waiting on a dead client ends", "statement": "When the client disappears, a waiting server returns from wait with an error (or quit).", "quantifier": "every history and every point at which the client dies", "why_tests_cant": "All crash points; the failure is an endless loop.", "anchors": ["src/trax.c:trax_server_wait_mot", "src/message.c:read_message"]}
{"id": "C59", "title": "The server returns only what it declared", "statement": "When wait returns initialize or frame, the image list has an image for exactly the declared channels and every image has a declared format.", "quantifier": "every message sequence from the peer", "why_tests_cant": "All adversarial inputs.", "anchors": ["src/trax.c:trax_server_wait_mot", "src/trax.c:trax_server_wait_sot"]}
{"id": "C60", "title": "Initialize is reported exactly when tracking starts", "statement": "wait reports initialize (with at least one object) when the client starts tracking while no objects were tracked, and frame otherwise; a frame before any initialize is never reported as initialize.", "quantifier": "every message sequence", "why_tests_cant": "All histories.", "anchors": ["src/trax.c:trax_server_wait_mot"]}
{"id": "C61", "title": "Legacy and multi-object calls are kept apart", "statement": "Single-object server calls are refused on a version 4 handle without touching the stream; a client refuses to add objects beyond one unless the tracker supports multiple objects, and refuses new objects in frame before version 4.", "quantifier": "every handle state", "why_tests_cant": "All states and versions.", "anchors": ["src/trax.c:trax_server_wait_sot", "src/trax.c:trax_server_reply_sot", "src/trax.c:trax_client_frame"]}
{"id": "C62", "title": "The quit reason reaches the peer", "statement": "The reason passed to trax_terminate is available to the peer in the properties returned with quit.", "quantifier": "every reason string (7-bit)", "why_tests_cant": "All strings, both directions.", "anchors": ["src/trax.c:trax_terminate", "src/trax.c:trax_client_wait", "src/trax.c:trax_server_wait_mot"]}
{"id": "C63", "title": "Shared C++ wrappers release their resource exactly once", "statement": "Copying, moving, assigning and destroying C++ wrapper objects (regions, images, properties, lists, handles) releases each underlying resource exactly once, when the last wrapper referring to it is gone, and never while one still refers to it.", "quantifier": "every program history of constructions, copies, moves, assignments and destructions", "why_tests_cant": "Unbounded histories of aliasing.", "anchors": ["src/traxpp.cpp:Wrapper::acquire", "src/traxpp.cpp:Wrapper::release"]}
{"id": "C64", "title": "C++ properties have value semantics", "statement": "Changing one C++ Properties object never changes another one, even if they were copied from each other.", "quantifier": "every history of copies, sets and clears", "why_tests_cant": "Unbounded histories of aliasing.", "anchors": ["src/traxpp.cpp:Properties::ensure_unique", "src/traxpp.cpp:Properties::clear"]}
{"id": "C65", "title": "C++ reply sends the given properties", "statement": "The properties passed to the multi-object server's single-region reply are sent to the client.", "quantifier": "every property set", "why_tests_cant": "All property sets.", "anchors": ["src/traxpp.cpp:ServerMOT::reply"]}
{"id": "C66", "title": "Log line buffering is bounded and lossless up to truncation", "statement": "The log line buffer never overflows; with truncation disabled the flushed text is exactly the input, with truncation every output line is at most the limit long and short lines are unchanged.", "quantifier": "every byte sequence and limit", "why_tests_cant": "All inputs; memory safety.", "anchors": ["support/client/client.cpp:line_buffer_push", "support/client/client.cpp:line_buffer_flush"]}
{"id": "C67", "title": "The watchdog fires after the timeout and only then", "statement": "While the watchdog is armed and not re-armed or stopped, the tracker process is stopped at the tick at which the timeout expires and not before; when it is disarmed it never stops a running tracker.", "quantifier": "every schedule of ticks and (re)arming", "why_tests_cant": "All interleavings.", "anchors": ["support/client/client.cpp:watchdog_loop", "support/client/client.cpp:reset_watchdog"]}
{"id": "C68", "title": "Advertised socket port is the bound port", "statement": "The port number given to the tracker is the port on which the client listens.", "quantifier": "every history of port allocations", "why_tests_cant": "Needs 56000 allocations to show the wrap-around.", "anchors": ["support/client/client.cpp:State"]}
{"id": "C69", "title": "Command line splitting", "statement": "The tracker command is split into its space-separated words; every accepted command yields its words, quoted words may contain spaces, and no input crashes the splitter.", "quantifier": "every command string", "why_tests_cant": "All strings.", "anchors": ["support/client/process.cpp:__next_token", "support/client/process.cpp:parse_command"]}
{"id": "C70", "title": "Saved trajectories load back", "statement": "Loading a saved trajectory gives the same number of regions with the same textual form.", "quantifier": "every list of regions", "why_tests_cant": "Unbounded lists.", "anchors": ["support/client/client.cpp:load_trajectory", "support/client/client.cpp:save_trajectory", "src/traxpp.cpp:operator>>"]}
{"id": "C71", "title": "Float properties round trip", "statement": "A property set as a float reads back as the single-precision number nearest to its six-decimal text, so values with at most six decimals come back unchanged; the text of a number always fits the fixed buffer it is printed to.", "quantifier": "every finite float, every 32-bit integer, every key, every property history", "why_tests_cant": "2^32 values, printing and parsing are both rounding operations.", "anchors": ["src/trax.c:trax_properties_set_float", "src/trax.c:trax_properties_get_float", "src/trax.c:trax_properties_set_int"]}
{"id": "C72", "title": "Polygon point access is safe", "statement": "Reading or writing a polygon point by index affects only that point; an index outside the polygon is refused without touching memory.", "quantifier": "every polygon, every index", "why_tests_cant": "All indexes; a stray access need not crash.", "anchors": ["src/trax.c:trax_region_set_polygon_point", "src/trax.c:trax_region_get_polygon_point"]}
{"id": "C73", "title": "The window of a rectangle marks exactly its pixels", "statement": "Rasterising a rectangle region with integer position and size into a window marks exactly the window's pixels that lie in the rectangle.", "quantifier": "every rectangle, every window position and size, both modes", "why_tests_cant": "All relative positions and sizes; every intermediate result is rounded.", "anchors": ["src/region.c:region_get_mask_offset", "src/region.c:rasterize_polygon"]}
{"id": "C74", "title": "A clone equals its original", "statement": "Cloning a region gives a region with the same type and the same content; cloning NULL gives NULL.", "quantifier": "every region the API can create or decode", "why_tests_cant": "All regions of all sizes.", "anchors": ["src/trax.c:trax_region_clone", "src/region.c:region_convert"]}
{"id": "C75", "title": "Typed region access", "statement": "What is stored in a region by create or set is what get returns, and an accessor for another region type is refused instead of reading or writing foreign data.", "quantifier": "every region, every accessor, every value", "why_tests_cant": "All values and all combinations of accessors and types.", "anchors": ["src/trax.c:trax_region_set_rectangle", "src/trax.c:trax_region_get_rectangle", "src/trax.c:trax_region_set_special", "src/trax.c:trax_region_get_mask_header"]}
{"id": "C76", "title": "Mask rows address exactly the pixels of the mask", "statement": "Row access is refused outside 0 <= row < height; inside, writing pixel j < width of a row stays inside the mask, is read back, and changes no other pixel.", "quantifier": "every mask, row, column and value", "why_tests_cant": "All sizes; a stray write need not crash.", "anchors": ["src/trax.c:trax_region_write_mask_row", "src/trax.c:trax_region_get_mask_row"]}
{"id": "C77", "title": "C++ regions have value semantics", "statement": "Changing one C++ Region object (setting a code, a rectangle, a polygon point or a mask pixel, or reading it from a stream) never changes another one, even if they were copied from each other, and its effect does not depend on whether the object was copied.", "quantifier": "every history of constructions, copies, moves, assignments, destructions and changes of Region objects", "why_tests_cant": "Unbounded histories of aliasing.", "anchors": ["src/traxpp.cpp:Region::set", "src/traxpp.cpp:Region::set_polygon_point", "src/traxpp.cpp:Region::write_mask_row", "src/traxpp.cpp:operator>>"]}
{"id": "C78", "title": "Single-object sessions through the C++ classes", "statement": "When a C++ client and a C++ multi-object server exchange single Region objects, every call of a proper exchange succeeds, the server's wait gives the start region, images and properties that the client sent, the client's wait gives the region of the reply, and both sides are ready for the next exchange. An empty Region object is reported as an error.", "quantifier": "every exchange of two connected handles", "why_tests_cant": "All regions, images, properties and states of the connection.", "anchors": ["src/traxpp.cpp:Client::wait", "src/traxpp.cpp:Client::initialize", "src/traxpp.cpp:ServerMOT::wait", "src/traxpp.cpp:ServerMOT::reply"]}
{"id": "C79", "title": "Points in polygons", "statement": "trax_region_contains on a polygon region says that a point is inside iff a ray from the point crosses an odd number of the sides of the polygon (even-odd rule over exact numbers, each side with its lower and without its upper end).", "quantifier": "every polygon and every point", "why_tests_cant": "All polygons, including self-intersecting ones, and all positions of the point on and next to sides and corners.", "anchors": ["src/region.c:point_in_polygon", "src/region.c:region_contains_point", "src/trax.c:trax_region_contains"]}
{"id": "C80", "title": "A run of traxclient over a sequence", "statement": "In tracking mode traxclient visits the frames in order, no frame twice: it initializes the tracker in the first frame that has an initialization region, sends each next frame, waits for the answer after each, and after a failure (overlap not above the threshold, or the tracker asks to stop) goes on with a restarted tracker the given number of frames later, or not at all. The result has exactly one entry per frame: 1 for an initialization, 2 for a failure, 0 for a frame that was passed over, otherwise the region of the tracker.", "quantifier": "every sequence, every list of initialization regions, threshold and reinitialization distance, and every behaviour of the tracker", "why_tests_cant": "All histories of answers, failures, requests to stop and exceptions of a tracker over sequences of all lengths.", "anchors": ["support/client/cli.cpp:main"]}
{"id": "C81", "title": "One time per frame in the timing file", "statement": "After a successful run of traxclient the timing file has exactly one line per frame of the sequence.", "quantifier": "every sequence, list of initialization regions, threshold and reinitialization distance, every behaviour of the tracker", "why_tests_cant": "All histories of answers and failures, all patterns of missing initialization regions.", "anchors": ["support/client/cli.cpp:main", "support/client/cli.cpp:save_timings"]}
{"id": "C82", "title": "Texts and arguments of any length are collected completely", "statement": "The buffers that collect the texts of incoming messages and of regions hold exactly what was added since the last reset, whatever the order and length of the pieces, and never touch memory outside of their block; the arguments of a message are found again at their positions, and nothing elsewhere.", "quantifier": "every history of added characters, formatted texts and resets, every initial size, every contents of fresh memory; every list of arguments", "why_tests_cant": "All lengths of pieces relative to the room left in the block, all growth patterns.", "anchors": ["src/buffer.h:buffer_push", "src/buffer.h:buffer_append", "src/buffer.h:buffer_extract", "src/buffer.h:list_append", "src/buffer.h:list_append_direct", "src/buffer.h:list_get", "src/buffer.h:list_reset"]}
{"id": "C83", "title": "The recursive lock excludes, and does not lock its owner out", "statement": "At any time at most one thread has taken the recursive lock and not given it back as often; a thread that has it is never kept waiting when it takes it again; when every thread has given it back it is free; giving back a lock one does not have does nothing.", "quantifier": "every number of threads, every program of acquire and release calls, every interleaving of their steps", "why_tests_cant": "Interleavings of single memory accesses cannot be enumerated by tests.", "anchors": ["support/client/threads.cpp:Mutex::acquire", "support/client/threads.cpp:Mutex::release", "support/client/threads.cpp:RecursiveMutex"]}
{"id": "C84", "title": "Calls on a tracker process are memory safe", "statement": "No sequence of calls on a TrackerProcess, whatever the tracker does and whenever the watchdog thread runs, uses a deleted process or a value that was never set.", "quantifier": "every sequence of query, initialize, wait, frame, ready, tracking and reset calls, every behaviour of the tracker and of the operating system, every schedule of the watchdog", "why_tests_cant": "All schedules of the watchdog relative to the start of the process, all crash points of the tracker.", "anchors": ["support/client/client.cpp:TrackerProcess", "support/client/client.cpp:start_process", "support/client/client.cpp:stop_process", "support/client/client.cpp:watchdog_loop", "support/client/process.cpp:Process::is_alive"]}
{"id": "C85", "title": "A tracker gets a target before it gets frames", "statement": "Every frame that is sent and every state that is waited for goes to a tracker process that was initialized before.", "quantifier": "every sequence of calls on a TrackerProcess, including calls that throw, every crash point of the tracker, every schedule of the watchdog", "why_tests_cant": "All histories with restarts and crashes.", "anchors": ["support/client/client.cpp:TrackerProcess::initialize", "support/client/client.cpp:TrackerProcess::wait", "support/client/client.cpp:TrackerProcess::frame", "support/client/client.cpp:TrackerProcess::reset"]}
{"id": "C86", "title": "Trackers with an unsupported protocol version are refused", "statement": "A tracker that introduces itself with a protocol version above 4 is refused with an exception, and nothing is sent to it; versions up to 4 are accepted.", "quantifier": "every version, every state without a running process, every sequence of calls", "why_tests_cant": "All versions, all histories before the call.", "anchors": ["support/client/client.cpp:start_process", "support/client/client.cpp:TrackerProcess::query", "support/client/client.cpp:TrackerProcess::initialize"]}
{"id": "C87", "title": "After an exchange the library knows whether the tracker is usable, and the clock is off", "statement": "initialize, wait and frame return true exactly if the exchange gave the expected message; after a failed exchange the process is stopped and the tracker is not ready; the time limit is active only during a call.", "quantifier": "every sequence of calls, every behaviour of the tracker, every schedule of the watchdog", "why_tests_cant": "All failure points in all histories.", "anchors": ["support/client/client.cpp:TrackerProcess::initialize", "support/client/client.cpp:TrackerProcess::wait", "support/client/client.cpp:TrackerProcess::frame", "support/client/client.cpp:start_watchdog", "support/client/client.cpp:stop_watchdog"]}
{"id": "C88", "title": "A tracker is stopped gently first, and its end is reported truthfully", "statement": "A tracker that ends by itself within the grace period gets no signal; SIGTERM is sent only after that, SIGKILL only if it outlives another period; stopping reports success exactly if the tracker ended with status 0, and no process is left.", "quantifier": "every number of questions after which the tracker ends, every exit status or signal", "why_tests_cant": "All points in time at which the process may end.", "anchors": ["support/client/client.cpp:stop_process", "support/client/process.cpp:Process::stop", "support/client/process.cpp:Process::kill", "support/client/process.cpp:Process::is_alive"]}
{"id": "C89", "title": "A wait with a time limit ends at the limit", "statement": "Waiting for a signal with a limit of T milliseconds waits until T milliseconds from now at the latest and not shorter unless signalled; without a positive limit it waits without a limit.", "quantifier": "every time of the clock, every limit", "why_tests_cant": "Every microsecond of the clock at which the call can begin.", "anchors": ["support/client/threads.cpp:simple_threads_cond_wait", "support/client/threads.cpp:Signal::wait"]}
{"id": "C90", "title": "Sessions of the single-object protocol transfer everything", "statement": "In a session with a server of protocol version 1 to 3 (one object), every start and every frame with which the client is accepted arrives with its images, its properties and, for a start, its region; every reply arrives with its region and its properties; after each exchange both sides have read all that was sent.", "quantifier": "every version from 1 to 3, every history of starts, frames and replies, all regions, images and properties that can be sent", "why_tests_cant": "Histories of any length and all contents; the order of the fields depends on the number of channels and the kind of message.", "anchors": ["src/trax.c:trax_client_initialize", "src/trax.c:trax_client_frame", "src/trax.c:trax_client_wait", "src/trax.c:trax_server_wait_sot", "src/trax.c:trax_server_reply_sot"]}
{"id": "C91", "title": "Client and ServerSOT transfer one object in both directions", "statement": "With the C++ classes Client and ServerSOT, each request gives the server the images, the properties and, for a start, the region the client passed; each reply gives the client the region and the properties the server passed.", "quantifier": "every connected pair of version 1 to 3, all regions, images and properties that can be sent, starts and frames", "why_tests_cant": "All contents and all histories before the exchange.", "anchors": ["src/traxpp.cpp:ServerSOT::wait", "src/traxpp.cpp:ServerSOT::reply", "src/traxpp.cpp:Client::initialize", "src/traxpp.cpp:Client::frame", "src/traxpp.cpp:Client::wait"]}
{"id": "C92", "title": "A C++ list sends what was put into it", "statement": "What is sent for an ImageList or ObjectList is, entry by entry, the image or region that was last set or received there, and it is still alive then; get returns it; a change of one list changes no other list; each image or region is released exactly once, when neither a variable nor a list refers to it.", "quantifier": "every history of constructing, setting, getting, receiving into, copying, moving and destroying lists and their elements", "why_tests_cant": "Unbounded histories of aliasing between variables, lists and the C library; lifetime errors need not show.", "anchors": ["src/traxpp.cpp:ImageList::set", "src/traxpp.cpp:ImageList::get", "src/traxpp.cpp:ImageList::wrap", "src/traxpp.cpp:ObjectList::set", "src/traxpp.cpp:ObjectList::get", "src/traxpp.cpp:ObjectList::wrap", "src/traxpp.cpp:ObjectList::cleanup"]}
{"id": "C93", "title": "Properties set on an object of a C++ list are sent with it", "statement": "After list.properties(i).set(k, v) the object i of the list has the property k with value v, and it is sent with it.", "quantifier": "every list, index, key and value, every history before the call", "why_tests_cant": "All histories of copies that may or may not share the properties.", "anchors": ["src/traxpp.cpp:ObjectList::properties", "src/traxpp.cpp:Properties::set", "src/traxpp.cpp:Properties::ensure_unique"]}
{"id": "C94", "title": "The tracker gets the arguments of the command line", "statement": "The arguments given to the command line tool after its switches are the program and the arguments with which the tracker process is started, byte for byte.", "quantifier": "every non-empty list of arguments", "why_tests_cant": "All byte strings; quoting and splitting are done by two different parts of the code.", "anchors": ["support/client/cli.cpp:main", "support/client/process.cpp:parse_command", "support/client/process.cpp:__next_token", "support/client/process.cpp:Process::Process"]}
{"id": "C95", "title": "The environment of the tracker", "statement": "A variable has exactly one value in the environment of the tracker: the last one given by the user, or else the one it has in the environment of the client; any other variable is not set. A switch -e NAME=VALUE gives VALUE to NAME.", "quantifier": "every environment of the client, every list of variables given, every name outside of the ones of the library, all kinds of connection", "why_tests_cant": "All environments and all orders of assignments.", "anchors": ["support/client/cli.cpp:main", "support/client/client.cpp:TrackerProcess::State::start_process", "support/client/process.cpp:Process::copy_environment", "support/client/process.cpp:Process::set_environment", "support/client/process.cpp:Process::start"]}
{"id": "C96", "title": "The tracker connects to the client that started it", "statement": "A server set up by trax_server_setup in a process started by the client library connects over the socket of this client, over its standard streams, or over the descriptors made for it, as the client has chosen.", "quantifier": "every environment of the client, every list of variables given, every port and descriptor", "why_tests_cant": "All environments, in particular those in which a client is itself a tracker.", "anchors": ["src/trax.c:trax_server_setup_v", "support/client/client.cpp:TrackerProcess::State::start_process", "support/client/process.cpp:Process::start"]}
{"id": "C97", "title": "The streams of the tracker are connected to the client", "statement": "A tracker that is started has ends of new pipes as its input, output and error streams, and the client has the other ends of these.", "quantifier": "every set of descriptors open in the client, every history of other trackers", "why_tests_cant": "All tables of descriptors, with any of the standard streams closed.", "anchors": ["support/client/process.cpp:Process::start", "src/trax.c:trax_server_setup_v"]}
{"id": "C98", "title": "The end of a tracker is seen on its streams", "statement": "When a tracker is gone, no end of the pipes made for it is open in any process, so that a reader sees the end of the stream instead of waiting.", "quantifier": "every history of trackers that are started, end and are stopped, and of files opened and closed by the user", "why_tests_cant": "Depends on which descriptors other processes inherit, at any point of any history.", "anchors": ["support/client/process.cpp:Process::start", "support/client/process.cpp:Process::cleanup", "support/client/process.cpp:Process::~Process"]}
{"id": "C99", "title": "Trackers leave the descriptors of the client alone", "statement": "The library never closes a descriptor of the user, and when all trackers are stopped it has closed all descriptors it has opened.", "quantifier": "every history of trackers that are started, end and are stopped, and of files opened and closed by the user", "why_tests_cant": "Unbounded histories; a descriptor closed twice may belong to somebody else by then.", "anchors": ["support/client/process.cpp:Process::Process", "support/client/process.cpp:Process::start", "support/client/process.cpp:Process::cleanup", "support/client/process.cpp:Process::~Process", "support/client/client.cpp:TrackerProcess::State::start_process"]}
{"id": "C100", "title": "Messages written by other implementations are understood", "statement": "A message is received with the type, the positional arguments in order and the named arguments that are meant, in whichever of the allowed ways it is written: each argument with or without quotes, any character escaped, several separating spaces, positional and named arguments mixed, no space at the end of the line, the name in capitals or, for state, as status.", "quantifier": "every message of 7-bit text, every allowed way of writing it, every division into chunks", "why_tests_cant": "The writers of this library produce only one of the ways; the others come from other implementations.", "anchors": ["src/message.c:read_message", "src/message.c:__parse_message_type", "src/message.c:__is_valid_key", "docs/protocol.rst"]}
{"id": "C101", "title": "A message that breaks off is an error", "statement": "A message whose last field ends with a backslash that escapes nothing, or in which closing quotes are followed by a stray character, is never returned: if only other output follows until the connection ends, the call reports an error.", "quantifier": "every such message, any lines of other output after it, every division into chunks", "why_tests_cant": "Every position in every message, in each of the four kinds of fields.", "anchors": ["src/message.c:read_message"]}
{"id": "C102", "title": "The size of an image is the one in its file", "statement": "The size to which overlaps are bounded by the command line tool (TRAX_BOUNDED_OVERLAP) is the width and height of the image of the frame.", "quantifier": "every PNG, GIF and JPEG file with any segments before the picture; every kind of image", "why_tests_cant": "All files, with any number of segments of any content.", "anchors": ["support/client/cli.cpp:image_get_size", "src/trax.c:trax_image_get_memory_header", "src/trax.c:trax_image_get_buffer"]}
{"id": "C103", "title": "Every line of an image list is a frame", "statement": "The list of images gives one frame for each line, in order, with the file names of the line, separated by semicolons, as the images of its channels.", "quantifier": "every list of lines of file names", "why_tests_cant": "All texts, with and without a line break at the end.", "anchors": ["support/client/cli.cpp:read_images"]}
{"id": "C104", "title": "A tracker gets the images it has asked for", "statement": "For each frame the command line tool loads an image for every channel that the tracker has declared and for which a file is listed, and no other, each in a format that the tracker accepts.", "quantifier": "every row of file names, every set of formats and channels", "why_tests_cant": "All sets of formats and channels.", "anchors": ["support/client/cli.cpp:load_image", "support/client/cli.cpp:load_images", "support/client/cli.cpp:main"]}
{"id": "C105", "title": "Region texts are read as written", "statement": "A text in one of the documented formats - four numbers, an even number of at least six numbers, a single number, or a mask with its runs, with or without the name of the format in front and with blanks around the numbers - is read as the region with the nearest single precision numbers; a text with a name of no format, or with a number of values that does not fit, gives no region.", "quantifier": "every list of decimal numbers with or without signs, decimals and exponents, every name, all blanks and leading zeros", "why_tests_cant": "All numbers and all their writings.", "anchors": ["src/region.c:region_parse", "src/region.c:__parse_uri_prefix", "src/region.c:_parse_sequence", "docs/protocol.rst"]}
{"id": "C106", "title": "Lists of formats and channels are read as the protocol says", "statement": "A list of names of formats or channels, in any order, with repetitions and with any number of semicolons between them, is read as the set of these names; a list with any other name is refused; and the text that is written for a set lists exactly its names.", "quantifier": "every list of words, every bit set", "why_tests_cant": "All orders, repetitions, separators and unknown names.", "anchors": ["src/trax.c:image_formats_decode", "src/trax.c:region_formats_decode", "src/trax.c:channels_decode", "src/trax.c:image_formats_encode"]}
{"id": "C107", "title": "What a tracker declares in C++ is what a client reads in C++", "statement": "When a tracker constructs a Metadata object, sets custom properties and constructs a ServerSOT or ServerMOT with it, the client that is constructed on what the server sent reads from Handle::metadata() exactly the declared formats, channels, texts and custom properties.", "quantifier": "every declaration of known formats and channels with plain texts and custom properties, both kinds of servers, every earlier and later content of the connection", "why_tests_cant": "All declarations; the record passes through four copies on the way.", "anchors": ["src/traxpp.cpp:Metadata::Metadata", "src/traxpp.cpp:Handle::metadata", "src/traxpp.cpp:ServerSOT::ServerSOT", "src/traxpp.cpp:ServerMOT::ServerMOT", "src/trax.c:server_setup", "src/trax.c:client_setup"]}
{"id": "C108", "title": "C++ metadata objects are values", "statement": "After any sequence of constructions, copies, moves, assignments, destructions and set_custom calls every Metadata object reads as its own history says: a change through one object never changes another one.", "quantifier": "every program of such steps on any number of objects", "why_tests_cant": "All interleavings of copies and changes.", "anchors": ["src/traxpp.cpp:Metadata::set_custom", "src/traxpp.cpp:Metadata::operator=", "include/trax.h:Metadata"]}
{"id": "C109", "title": "C++ image objects are values", "statement": "After any sequence of creations, copies, moves, assignments, destructions and pixel writes every Image object gives the type, path, URL, size, pixels or data that its own history says: a change through one object never changes another one.", "quantifier": "every program of such steps on any number of objects", "why_tests_cant": "All interleavings of copies and changes.", "anchors": ["src/traxpp.cpp:Image::operator=", "src/traxpp.cpp:Image::write_memory_row", "src/traxpp.cpp:Image::create_memory", "src/trax.c:trax_image_write_memory_row"]}
{"id": "C110", "title": "The parameters of a handle agree on both sides for the whole session", "statement": "After the introduction trax_get_parameter gives on both sides the agreed version and multi-object mode, the own side, the kind of connection and the declared formats, and continues to do so after any history of calls while the handle is alive; unknown parameters are reported as such, and after termination every query is an error.", "quantifier": "every declaration, every history of calls on either side", "why_tests_cant": "All histories of calls.", "anchors": ["src/trax.c:trax_get_parameter", "src/trax.c:server_setup", "src/trax.c:client_setup", "include/trax.h:TRAX_PARAMETER_VERSION"]}
{"id": "C111", "title": "The two output streams of a tracker are logged in order and line by line", "statement": "While a tracker is in use, the log consists of what came over the connection outside of the messages and of what the tracker has printed to its error stream, each in order and with every line cut to 256 bytes; nothing is lost, repeated or written outside of the buffers, and lines of the two streams are not mixed.", "quantifier": "every schedule of the logger thread and of the thread that uses the tracker, every text on both streams, every point at which the tracker ends", "why_tests_cant": "All interleavings of two threads and of the tracker.", "anchors": ["support/client/client.cpp:logger_loop", "support/client/client.cpp:client_logger", "support/client/client.cpp:line_buffer_push", "support/client/client.cpp:line_buffer_flush"]}
{"id": "C112", "title": "A silent client writes no log", "statement": "With VERBOSITY_SILENT nothing the tracker prints is written to the log stream.", "quantifier": "every schedule, every number of trackers started and stopped", "why_tests_cant": "The output depends on which thread reads the last bytes of the error stream.", "anchors": ["support/client/client.cpp:flush_streams", "support/client/client.cpp:client_logger", "support/client/client.cpp:logger_loop"]}
{"id": "C113", "title": "The last words of a tracker are in the log", "statement": "When a tracker has been stopped, everything it had printed to its error stream is in the log, in order.", "quantifier": "every schedule of the logger thread and of the thread that stops the tracker, every text", "why_tests_cant": "Two threads read the same stream; all ways to share its bytes.", "anchors": ["support/client/client.cpp:stop_process", "support/client/client.cpp:flush_streams", "support/client/client.cpp:reset_logger"]}
{"id": "C114", "title": "The client library reads only from the trackers it has started", "statement": "No byte of a file or socket of the program is read by the library, whatever the program opens and closes while trackers are started and stopped.", "quantifier": "every history of trackers and of files opened and closed, every schedule of the logger thread", "why_tests_cant": "Depends on the numbers of descriptors and on the schedule.", "anchors": ["support/client/client.cpp:logger_loop", "support/client/client.cpp:stop_process", "support/client/process.cpp:Process::get_error"]}
{"id": "C115", "title": "Images survive the way to OpenCV and back", "statement": "image_to_mat makes a matrix of the size of the image with its pixels in the order blue, green, red; mat_to_image does the reverse, also for a part of a larger matrix; one after the other changes nothing. This holds for colour and for grey images. Images in files and buffers are what OpenCV reads.", "quantifier": "every image and every matrix of any size and content, with any distance between the rows", "why_tests_cant": "All sizes, contents and layouts of the memory.", "anchors": ["support/opencv/opencv.cpp:image_to_mat", "support/opencv/opencv.cpp:mat_to_image"]}
{"id": "C116", "title": "Masks survive the way to OpenCV and back", "statement": "region_to_mat makes a matrix that has every pixel of the mask at its place in the frame and is zero elsewhere; mat_to_region makes a mask with the elements of the matrix.", "quantifier": "every mask at every position, every matrix of any size and layout, any previous content of the memory", "why_tests_cant": "All positions, sizes and layouts, and all contents of fresh memory.", "anchors": ["support/opencv/opencv.cpp:region_to_mat", "support/opencv/opencv.cpp:mat_to_region"]}
{"id": "C117", "title": "Rectangles and points survive the way to OpenCV and back", "statement": "rect_to_region and region_to_rect are inverse to each other, region_to_rect rounds the coordinates of the bounding rectangle to the nearest integers, points_to_region and region_to_points keep the points and their order.", "quantifier": "every rectangle, every region, every list of points", "why_tests_cant": "All coordinates, including the ones single precision cannot represent.", "anchors": ["support/opencv/opencv.cpp:region_to_rect", "support/opencv/opencv.cpp:rect_to_region", "support/opencv/opencv.cpp:region_to_points", "support/opencv/opencv.cpp:points_to_region"]}
{"id": "C118", "title": "Images survive the way to MATLAB and back", "statement": "image_to_array makes an array whose element in row i, column j and layer k is the channel k of the pixel in row i and column j; array_to_image does the reverse; one after the other changes nothing. This holds for every kind of image, and an image by path becomes its path.", "quantifier": "every image and every array of uint8 or uint16 of any size and content", "why_tests_cant": "All sizes and contents; the two sides store pixels in different orders.", "anchors": ["support/matlab/helpers.cpp:image_to_array", "support/matlab/helpers.cpp:array_to_image"]}
{"id": "C119", "title": "Regions survive the way to MATLAB and back", "statement": "region_to_array makes a row with the numbers of a rectangle, of the points of a polygon or of the code of a special region, and for a mask an image that has its pixels at their places and is zero elsewhere; array_to_region makes a region with the same numbers or pixels, with the nearest single precision numbers where double precision was given.", "quantifier": "every region and every array of numbers or pixels", "why_tests_cant": "All numbers, sizes, positions and contents.", "anchors": ["support/matlab/helpers.cpp:region_to_array", "support/matlab/helpers.cpp:array_to_region"]}
{"id": "C120", "title": "Properties survive the way to MATLAB and back", "statement": "parameters_to_struct and parameters_to_cell put every property into a structure or cell array, struct_to_parameters and cell_to_parameters make the same properties of it; of a structure of the user every text becomes the value and every number its text with six decimals.", "quantifier": "every set of properties and every structure or cell array", "why_tests_cant": "All sets of keys and values.", "anchors": ["support/matlab/helpers.cpp:struct_to_parameters", "support/matlab/helpers.cpp:cell_to_parameters", "support/matlab/helpers.cpp:parameters_to_struct", "support/matlab/helpers.cpp:parameters_to_cell"]}
{"id": "C121", "title": "Names of formats and channels in MATLAB denote the sets of the protocol", "statement": "A name, or a vector of names, of region formats, image formats or channels, in letters of either case, gives the set of what is named; an unknown name is an error. The list of names made of a set has the name of each member once and gives the same set.", "quantifier": "every list of names and every set", "why_tests_cant": "All texts and all lists.", "anchors": ["support/matlab/helpers.cpp:get_flags", "support/matlab/helpers.cpp:get_region_code", "support/matlab/helpers.cpp:get_image_code", "support/matlab/helpers.cpp:get_channel_code", "support/matlab/helpers.cpp:decode_region", "support/matlab/helpers.cpp:decode_image", "support/matlab/helpers.cpp:decode_channels"]}
{"id": "C122", "title": "Lists of images survive the way to MATLAB and back", "statement": "images_to_array makes a row of cells with the arrays of the images in the order of the channels, and array_to_images for these channels makes the same list; a single image needs no cell.", "quantifier": "every combination of channels and all images in them", "why_tests_cant": "All images and combinations.", "anchors": ["support/matlab/helpers.cpp:images_to_array", "support/matlab/helpers.cpp:array_to_images"]}
{"id": "C123", "title": "Options are read as the POSIX guidelines say", "statement": "Calling getopt until it returns -1 gives the options of the command line in order: letters may be grouped, an argument may follow its letter or be the next word, whatever that is; unknown letters and missing arguments are reported with the letter; the first operand, a double dash or the end of the words ends the options, and optind is then the place of the first operand. The calls end and stay within the words.", "quantifier": "every option string and every command line", "why_tests_cant": "All command lines.", "anchors": ["support/client/getopt.c:getopt"]}
{"id": "C124", "title": "The switches of traxclient set what its help says", "statement": "For file names, the timeout, the threshold, the reinitialization offset, verbosity and connection the last switch counts, with a default; the timeout is not negative, the offset at least one, the threshold between 0 and 1; environment variables and parameters are collected, the last one for each name counts; the operands are the program and arguments of the tracker. An unknown switch, or one without its argument, is an error that names it; -h, or no operands, prints the help.", "quantifier": "every command line", "why_tests_cant": "All combinations and orders of switches.", "anchors": ["support/client/cli.cpp:main", "support/client/getopt.c:getopt"]}
{"id": "C125", "title": "The switches of traxtest set what its help says", "statement": "The switches of traxtest mean what the same switches of traxclient mean, and -I gives the number of initializations.", "quantifier": "every command line", "why_tests_cant": "All combinations and orders of switches.", "anchors": ["support/client/tester.cpp:main", "support/client/getopt.c:getopt"]}
{"id": "C126", "title": "traxtest sends its test image to every tracker", "statement": "Whatever image formats the tracker declares, traxtest sends the test image, in a format that the tracker reads.", "quantifier": "every set of formats and every content of fresh memory", "why_tests_cant": "Depends on the content of uninitialised memory.", "anchors": ["support/client/tester.cpp:main"]}
{"id": "C127", "title": "A tracker passes traxtest exactly when it answers every image", "statement": "traxtest ends with status 0 if the tracker accepts every initialization and answers every image, or asks to end the session; it sends the image of the initialization and twenty more in every session, for several objects three at the start and a new one every fifth frame; if the tracker dies, the status is 1.", "quantifier": "every behaviour of the tracker and every number of initializations", "why_tests_cant": "All behaviours of the other process.", "anchors": ["support/client/tester.cpp:main"]}
{"id": "C128", "title": "traxserver('setup', …) declares what the arguments say", "statement": "traxserver('setup', regions, images, …) of MATLAB makes a session; a client that reads what was sent gets exactly the formats, the channels (colour, if none are given), the texts and the custom properties, of each the value given last, and a tracker for one object. Names of operations, formats and arguments may be written in letters of either case.", "quantifier": "every set of formats, every list of named arguments, every state before the call", "why_tests_cant": "All combinations and orders of arguments, all texts.", "anchors": ["support/matlab/traxserver.cpp:mexFunction", "support/matlab/helpers.cpp:get_flags", "support/matlab/helpers.cpp:get_argument_code"]}
{"id": "C129", "title": "A MATLAB tracker gets requests and sends regions", "statement": "After a request of the client, [images, region, properties] = traxserver('wait') gives the images of the channels of the tracker in cells, the region (nothing for a frame) and the properties, as cells or as a structure; traxserver('status', array, properties) then sends the region that the array means, with the properties, and the client's wait gives them; the two are in a session again.", "quantifier": "every session, every request that can be sent, every array that means a region", "why_tests_cant": "All images, regions and properties, and all histories of the session.", "anchors": ["support/matlab/traxserver.cpp:mexFunction", "support/matlab/helpers.cpp:region_to_array", "support/matlab/helpers.cpp:array_to_region", "src/traxpp.cpp:ServerMOT::wait", "src/traxpp.cpp:ServerMOT::reply"]}
{"id": "C130", "title": "The life of a session of traxserver", "statement": "Without a session every operation but setup is an error or, for quit, does nothing, whatever the arguments. When the client ends the session, wait gives empty results, the session is gone and nothing more is sent. traxserver('quit', reason), the reason being optional, tells the client once, with the reason, and the session is gone. A second setup ends the first session. Anything that is not an operation is an error and changes nothing.", "quantifier": "every call and every state", "why_tests_cant": "All argument lists and all histories of calls.", "anchors": ["support/matlab/traxserver.cpp:mexFunction", "src/traxpp.cpp:Handle::terminate"]}
{"id": "C131", "title": "traxclient leads the conversation of a callback and a tracker", "statement": "traxclient of MATLAB calls the callback in rounds. The callback gets the region, the time and the properties of the tracker's last answer, what the tracker declared, and the data it gave before. If the reply has a region, the tracker is started with the images and the region, after a reset if it was started before; otherwise the images are the next frame. The run ends with the data of the reply that has no images, or no region at first; there is an error only if the tracker or the callback fails or a reply or an answer cannot be converted.", "quantifier": "every tracker, every callback, every number of rounds", "why_tests_cant": "All behaviours of the tracker and the callback, any number of rounds.", "anchors": ["support/matlab/traxclient.cpp:mexFunction", "support/matlab/traxclient.cpp:call_callback", "src/traxpp.cpp:Client::wait"]}
{"id": "C132", "title": "Named arguments of traxclient", "statement": "The named arguments of traxclient may come in any order and in letters of either case; the last value of a name counts, without one there are defaults (30 seconds, standard streams, no variables, no data, no directory, no log); the variables of the environment are collected, the last value of each counts. A command that is not a text, a callback that is not a function, an argument with another name, or a name without a value is an error.", "quantifier": "every list of arguments", "why_tests_cant": "All combinations, orders and spellings of arguments, all numbers.", "anchors": ["support/matlab/traxclient.cpp:mexFunction", "support/matlab/traxclient.cpp:get_connection_mode", "support/matlab/traxclient.cpp:struct_to_env", "support/matlab/helpers.cpp:get_argument_code"]}
{"id": "C133", "title": "C++ properties and standard containers", "statement": "Properties::from_map gives the object the entries of the map and leaves its other properties and all other objects as they are. Properties::to_map puts exactly the properties of the object into the map, which keeps what it has under other keys; to_vector adds every key once; printing writes one line key=value for each property. A map given to an empty object comes back unchanged.", "quantifier": "every history of properties objects, every map, vector and stream", "why_tests_cant": "All maps and all histories of shared objects.", "anchors": ["src/traxpp.cpp:Properties::from_map", "src/traxpp.cpp:Properties::to_map", "src/traxpp.cpp:Properties::to_vector", "src/traxpp.cpp:operator<<"]}
{"id": "C134", "title": "Sockets: no descriptor is lost or taken", "statement": "When connections over sockets are made and ended, the library never closes a descriptor of the user, and when all tracker objects and handles are gone it has closed every descriptor it has opened, whichever system calls fail. Setting up a server with a socket ends when the client accepts the connection.", "quantifier": "every history of tracker objects, clients, servers and files of the user, every answer of the system", "why_tests_cant": "Failing system calls at every point of unbounded histories.", "anchors": ["src/message.c:create_message_stream_socket_accept", "src/message.c:create_message_stream_socket_connect", "src/message.c:destroy_message_stream", "support/client/client.cpp:create_server_socket", "support/client/client.cpp:destroy_server_socket", "src/trax.c:client_setup"]}
{"id": "C135", "title": "Python: names of formats and states", "statement": "In the Python package, a list of names of region formats, image formats or channels becomes the code with exactly the flags of these names, and an unknown name raises an IndexError; a code becomes the list of the names of its flags, and this list becomes the code again (without bits that have no name). Every status has one name and no two statuses have the same.", "quantifier": "every list of names, every code", "why_tests_cant": "All lists of arbitrary texts, all codes.", "anchors": ["support/python/trax/region.py:Region.encode_list", "support/python/trax/region.py:Region.decode_list", "support/python/trax/image.py:Image.encode_list", "support/python/trax/image.py:ImageChannel.encode_list", "support/python/trax/__init__.py:TraxStatus.decode"]}
{"id": "C136", "title": "Python: properties are a dictionary", "statement": "Properties of the Python package behave like dictionaries of texts: after any calls, get gives the value that was set last for the key, or the default; dict gives exactly the entries, each key once; p[key] gives the value; copying takes over all entries; objects do not influence each other. Texts arrive as they were given, in any alphabet.", "quantifier": "every history of calls on any number of objects, every text", "why_tests_cant": "All histories and all texts of unbounded length, over all code points.", "anchors": ["support/python/trax/__init__.py:Properties.__init__", "support/python/trax/__init__.py:Properties.get", "support/python/trax/__init__.py:Properties.set", "support/python/trax/__init__.py:Properties.__getitem__", "support/python/trax/__init__.py:Properties.dict", "support/python/trax/__init__.py:Properties.copy"]}
{"id": "C137", "title": "Python: images keep their pixels", "statement": "In the Python package, MemoryImage.create makes of every NumPy array with 8-bit grey, 16-bit grey or RGB pixels an image with exactly these pixels, however the array lies in memory (transposed, reversed, a slice, other byte order), and array() gives an array with the same pixels; other arrays raise an exception. Paths and addresses come back as they were given, encoded images with their bytes, and the format name says what they are.", "quantifier": "every array: type, shape, strides and contents; every text, every sequence of bytes", "why_tests_cant": "All shapes, strides, byte orders and contents of unbounded size.", "anchors": ["support/python/trax/image.py:MemoryImage.create", "support/python/trax/image.py:MemoryImage.array", "support/python/trax/image.py:FileImage.create", "support/python/trax/image.py:FileImage.path", "support/python/trax/image.py:URLImage.create", "support/python/trax/image.py:URLImage.url", "support/python/trax/image.py:BufferImage.create", "support/python/trax/image.py:BufferImage.buffer", "support/python/trax/image.py:BufferImage.format"]}
{"id": "C138", "title": "Python: regions keep their values", "statement": "In the Python package, a rectangle, polygon, mask or special region made of numbers or of an array gives back these numbers (as the nearest floats), points, pixels, size, offset and code; of what a region of the library shows, the same region is made again; the normalised array of a mask is the mask with zeros up to the origin; wrong arguments raise an exception.", "quantifier": "every number, every list of points, every array, every region", "why_tests_cant": "All floating-point numbers, lists and arrays of any size and layout.", "anchors": ["support/python/trax/region.py:Special", "support/python/trax/region.py:Rectangle", "support/python/trax/region.py:Polygon", "support/python/trax/region.py:Mask"]}
{"id": "C139", "title": "Python: sessions", "statement": "When a Python client and a Python server are connected, every initialize or frame of the client makes Server.wait return a request with the images of the tracker's channels, the new objects with their properties and the properties of the request, and tell whether tracking starts; every status of the server makes initialize or frame return the objects of the reply with their properties; no exception is raised, in a session of any length. When one of them quits, the other is told, with the reason.", "quantifier": "every history of exchanges, every images, objects, properties, reasons", "why_tests_cant": "Histories of any length, with any number of objects, images and properties.", "anchors": ["support/python/trax/server.py:Server.wait", "support/python/trax/server.py:Server.status", "support/python/trax/server.py:Server.quit", "support/python/trax/client.py:Client.initialize", "support/python/trax/client.py:Client.frame", "support/python/trax/client.py:Client.quit", "support/python/trax/__init__.py:wrap_images", "support/python/trax/__init__.py:wrap_objects", "support/python/trax/__init__.py:wrap_image_list", "support/python/trax/__init__.py:wrap_object_list"]}
{"id": "C140", "title": "Python: start of a session", "statement": "What a Python tracker declares when it constructs its Server (formats of regions and images, channels, name, description, family, custom properties, support of several objects), the Python Client shows, whatever follows the introduction; the constructors raise no exception, and the programs are connected afterwards. Names of formats or channels that do not exist raise an exception in the tracker.", "quantifier": "every declaration: every list of names, every text, every dictionary; every continuation of the stream", "why_tests_cant": "All lists, texts and dictionaries of any size.", "anchors": ["support/python/trax/server.py:Server.__init__", "support/python/trax/client.py:Client.__init__", "support/python/trax/client.py:Client.get"]}
{"id": "C141", "title": "The log file contains the traffic, even after a crash", "statement": "The log file of trax_logger_setup_file contains the bytes that were received and sent, in order. At every point of time, if the program is killed, the file contains a beginning of the traffic that includes every message that was read or written completely.", "quantifier": "every history of messages read and written, every point at which the program is killed, every way in which the C library empties its buffer", "why_tests_cant": "The file depends on where the program is killed and on the state of the buffer, and the traffic is unbounded.", "anchors": ["src/trax.c:file_logger", "src/trax.c:trax_logger_setup_file", "src/message.c:read_message", "src/message.c:write_message", "src/message.h:LOG_CHAR", "src/message.h:LOG_BUFFER"]}
{"id": "C142", "title": "Python: loggers get the traffic as text", "statement": "A logger of the Python package gets the traffic of its client or server, as text, complete and in order, whatever its own method does; it is interrupted exactly if this method was. A FileLogger writes it to the file of the given name.", "quantifier": "every history of messages, every text, every behaviour of the method handle, every file name", "why_tests_cant": "The text comes in pieces that depend on all names and values; interruptions may come at any piece.", "anchors": ["support/python/trax/__init__.py:Logger.__call__", "support/python/trax/__init__.py:FileLogger", "support/python/trax/_ctypes.py:trax_logger"]}
{"id": "C143", "title": "A polygon marks the pixels it covers", "statement": "In the window of a polygon a pixel is marked exactly if the polygon covers a part of it in its row: for a convex polygon if the row has, within the pixel, a point between two points of the outline, and for any polygon if the left end of the pixel is in the polygon by the even-odd rule or the outline goes through the row within the pixel.", "quantifier": "every polygon, every window, every pixel, both rasterisation modes", "why_tests_cant": "All polygons and all windows; the places where sides meet a row are computed in floating point.", "anchors": ["src/region.c:rasterize_polygon", "src/region.c:region_get_mask_offset", "src/region.c:round_polygon"]}
{"id": "C144", "title": "Python programs neither lose nor misuse objects of the library", "statement": "Whatever a Python program does with images, regions, properties, requests and answers, no object of the C library is used after its release or released twice, and the objects of the library that exist are exactly those that the program can still reach through its variables.", "quantifier": "every sequence of creations, copies and drops of variables, requests and answers, failing and interrupted calls, every result the library can give, every placement of Python objects in memory", "why_tests_cant": "All programs and all results of the library; a leaked block or a stale pointer does not show in the results of a call.", "anchors": ["support/python/trax/__init__.py:Wrapper", "support/python/trax/__init__.py:wrap_object_list", "support/python/trax/server.py:Server.wait", "support/python/trax/client.py:Client.frame", "support/python/trax/region.py:Polygon.create"]}
{"id": "C145", "title": "Dropping a client or server in Python ends its session", "statement": "When a Python program drops its client or server object, the session ends: the peer is told once, unless it has been told before, the log function is told the same, everything is released, and no released memory is used. Ending the session with quit before that, in or out of a with block, is harmless.", "quantifier": "every state of the session, every reason, with and without log, clients and servers", "why_tests_cant": "A call of a released function often works by chance; the order in which attributes are released depends on the order of assignments in the constructor.", "anchors": ["support/python/trax/client.py:Client.__init__", "support/python/trax/server.py:Server.quit", "support/python/trax/__init__.py:HandleWrapper", "src/trax.c:trax_cleanup", "src/message.h:LOG_BUFFER"]}
{"id": "C146", "title": "C programs get all their memory back", "statement": "A C program sets a client or server up, makes calls in any order, releases the object lists, image lists and regions that waiting gives it, and cleans up. Then, whatever the other side sends, no memory is released twice or used after its release, everything that waiting gives is memory of the caller alone, and all memory that was taken since is given back. When a call fails, the caller knows whether what it had in its variables is released.", "quantifier": "every history of calls, every input of the stream (messages of all kinds, broken messages, the end of the connection), every output failure, every set of declared formats", "why_tests_cant": "The functions release memory at many places on their ways out (failure labels, early returns, continues); a leak or a double release shows only for the combination of messages, formats and failures that takes that way.", "anchors": ["src/trax.c:client_setup", "src/trax.c:trax_client_wait", "src/trax.c:trax_client_initialize", "src/trax.c:trax_client_frame", "src/trax.c:trax_server_wait_sot", "src/trax.c:trax_server_wait_mot", "src/trax.c:trax_server_reply_mot", "src/trax.c:trax_cleanup", "src/trax.c:set_error", "src/buffer.h:list_append", "src/region.c:region_convert"]}
{"id": "C147", "title": "What a run of traxclient leaves behind", "statement": "The program traxclient, from its command line to its end: the exit status is 0 or -1, and with -1 no file is written. With -Q it is 0 exactly when the tracker introduces itself, and no file matters. Otherwise, if the status is 0, the result file has one line for each frame of the sequence; the line of a frame is what happened in it (no initialization, initialization, failure, or the region that the tracker answered for this frame), the tracker was given the images of that frame, the region for its initialization and the parameters of the command line; the timing file has a line for each time, and nothing else is written. A tracker that does what it is asked gets every frame once and in order.", "quantifier": "every command line, content of the files, environment and behaviour of the tracker process", "why_tests_cant": "The result depends on the files, on the switches, on the environment and on each answer of the tracker; that the line of a frame belongs to this frame must hold after any history of failures, skipped frames and restarts.", "anchors": ["support/client/cli.cpp:main", "support/client/cli.cpp:save_timings", "support/client/client.cpp:load_trajectory", "support/client/client.cpp:save_trajectory"]}
{"id": "C148", "title": "traxclient with the static tracker", "statement": "traxclient with the static tracker of the project (the tracker that always answers with the region it was initialized with, in the version for several objects and in the version for one) gives, for every sequence, the expected result: it ends with status 0, the result file has the line 1 for the first frame and, for every other frame, the text of the region of the initialization, and the file of times has one line for each frame. Neither the other output of the tracker on the stream of the protocol nor the watchdog of traxclient changes that.", "quantifier": "every length of the sequence, start region, image list, properties and environment of the command line, content of fresh memory, moment of the watchdog, with one or both kinds of output on the stream", "why_tests_cant": "The project's integration test runs this pair of programs on one sequence; the claim is about every sequence and region, and about each interleaving of the tracker's output, the watchdog and the calls.", "anchors": ["support/tests/static/native_static.c:main", "support/client/cli.cpp:main", "support/client/client.cpp:TrackerProcess", "src/traxpp.cpp:Client::wait", "src/trax.c:trax_server_wait_mot", "src/trax.c:trax_server_wait_sot"]}
{"id": "C149", "title": "traxplayer plays the video to the tracker", "statement": "When the user of traxplayer has chosen a region in the first frame of the video and confirmed it, the tracker is started, it is initialized with that region and frame, and it gets the following frames in order; the program ends with status 0 when the video ends or when the user confirms no region, and with an error status when the tracker fails.", "quantifier": "every command line, video, behaviour of the user, tracker and operating system, schedule of the watchdog thread", "why_tests_cant": "There is no test of traxplayer, and one would need a window and a user; the claim is about every video, user and tracker.", "anchors": ["support/client/player.cpp:main", "support/client/player.cpp:read_frame", "support/client/player.cpp:convert_image", "support/client/client.cpp:TrackerProcess::ready", "docs/tutorial_client.rst", "docs/support.rst"]}
{"id": "C150", "title": "Choosing a region with the mouse", "statement": "In traxplayer the region that the user dragged last is the one that the space key confirms: the rectangle between the point where the mouse button went down and the point where it went up, whatever the direction. A region can be taken back and replaced. The key Q cancels the input.", "quantifier": "every sequence of mouse events and keys, in any order and number", "why_tests_cant": "The number of orders in which mouse events and keys can come is not bounded.", "anchors": ["support/client/player.cpp:on_mouse", "support/client/player.cpp:get_region_interactive"]}
{"id": "C151", "title": "The switches of traxplayer", "statement": "traxplayer understands the switches that its help describes: each has the effect described there, the last use counts, unknown switches and missing arguments are errors that name the switch, and what follows the switches is the command of the tracker.", "quantifier": "every command line", "why_tests_cant": "The combinations of switches, grouped letters, attached and separate arguments are not bounded.", "anchors": ["support/client/player.cpp:main", "support/client/player.cpp:print_help", "support/client/getopt.c"]}
{"id": "C152", "title": "The trackers of the OpenCV module serve a client", "statement": "The interactive tracker and the CamShift tracker of the OpenCV module announce the regions and images they work with, and answer every initialization and every frame of a client with one region: the interactive tracker with the rectangle of the initialization, moved so that its centre is where the user clicked.", "quantifier": "every client, request, image, user and result of OpenCV", "why_tests_cant": "The programs are in no test; the requests, clicks and images that can come are not bounded.", "anchors": ["support/opencv/interactive.cpp:main", "support/opencv/interactive.cpp:on_mouse", "support/opencv/camshift.cpp:main", "include/trax.h:Metadata", "src/traxpp.cpp:Metadata::Metadata"]}
{"id": "C153", "title": "A tracker that follows the documentation is supervised as documented", "statement": "A tracker written as the documentation of the C++ library says can be run by traxclient over any sequence: it is initialized with the region and the images of a frame, then updated with the images of each following frame, in order and exactly once; the result has a line for every frame, with the region it has found there. After a failure either nothing more happens, or another process of the tracker is initialized the given number of frames later. What else the tracker prints does not matter.", "quantifier": "every tracker, sequence, length, region, other output, property, number and place of failures, and schedule of the watchdog", "why_tests_cant": "Trackers, sequences and places of failures are not bounded, and the watchdog runs in its own thread; the tests run one tracker over one short sequence.", "anchors": ["docs/api_cpp.rst:Integrating", "support/client/cli.cpp:main", "support/client/client.cpp:TrackerProcess", "src/traxpp.cpp:ServerMOT::wait", "src/traxpp.cpp:ServerMOT::reply", "src/traxpp.cpp:Client::initialize", "src/traxpp.cpp:Client::frame", "src/traxpp.cpp:Client::wait"]}
{"id": "C154", "title": "A tracker that asks to end the session is told from one that crashed", "statement": "When a call for a tracker's answer fails, TrackerProcess::ready tells whether the tracker has crashed or has asked to end the session: traxclient takes a quit message as a failure of the tracker, goes on with the remaining frames as it does after other failures, and writes the result; when the tracker crashes it ends with an error and writes no result.", "quantifier": "every tracker, sequence, frame at which the tracker ends, history of answers and failures before it, moment at which the operating system reports the end of the process, and schedule of the watchdog", "why_tests_cant": "The moment at which the operating system reports the end of a process is not under the control of a test, and neither the place of the end nor the history before it is bounded.", "anchors": ["docs/api_client.rst:initialize, frame, wait", "support/client/cli.cpp:main", "support/client/client.cpp:TrackerProcess::wait", "support/client/client.cpp:TrackerProcess::ready", "src/trax.c:trax_client_wait", "src/trax.c:trax_is_alive", "src/message.c:read_message"]}
{"id": "C155", "title": "draw_region draws the region", "statement": "draw_region draws any region in the given color and line width: nothing of an empty or special region, the outline of a rectangle or polygon with its corners at the nearest pixels, filled if the width asks for it, and the pixels of a mask.", "quantifier": "every region, canvas, color and line width", "why_tests_cant": "All coordinates, masks and canvas sizes; there is no test of the function.", "anchors": ["support/opencv/opencv.cpp:draw_region", "support/opencv/opencv.cpp:region_to_rect", "docs/api_opencv.rst:draw_region"]}
{"id": "C156", "title": "The debug messages of a tracker process are whole lines in the log", "statement": "With debugging on, every message of TrackerProcess appears in the log as one line with its whole text, in the order in which the messages come about, whatever command and directory the process has; with debugging off there are none.", "quantifier": "every sequence of messages, command, working directory, process number and exit status", "why_tests_cant": "The length of commands and directories is not bounded, and the fault only shows for long ones.", "anchors": ["support/client/client.cpp:TrackerProcess::State::print_debug", "support/client/client.cpp:start_process", "support/client/client.cpp:stop_process"]}
{"id": "C157", "title": "Python: interrupted calls", "statement": "When the user interrupts a Python client (Ctrl-C) while the library calls its logger, the call of initialize, frame or quit during which that happens raises KeyboardInterrupt, after the library has finished its part; calls that are not interrupted do what they do without a logger.", "quantifier": "every state of the client, every call with every arguments, every answer of the tracker, an interrupt in the sending or in the waiting half or none, every history of later calls", "why_tests_cant": "An interrupt can come at every moment of every call, and its effect shows in all later calls.", "anchors": ["support/python/trax/__init__.py:Logger.__call__", "support/python/trax/client.py:Client.initialize", "support/python/trax/client.py:Client.frame", "support/python/trax/client.py:Client.quit"]}
{"id": "C158", "title": "Python: failing constructors leave nothing behind", "statement": "When the constructor of a Python Client or Server raises an exception, nothing remains of what it made: no open session that nobody can end, no memory that nobody releases. A client whose tracker introduces itself is constructed, whatever the introduction contains.", "quantifier": "every input of the client, every declaration of the server, interrupted or not", "why_tests_cant": "What is lost does not show in the result of the call; all inputs and declarations.", "anchors": ["support/python/trax/client.py:Client.__init__", "support/python/trax/server.py:Server.__init__", "src/message.c:read_message"]}
{"id": "C159", "title": "Property objects keep their memory in order", "statement": "A program that creates, copies, appends, changes, reads, clears and releases property objects never reads or writes outside of a block of memory or in a released one, no block is released twice, and when all objects are released no memory of theirs is left; the answers are those of finite maps, and copies are independent of what they were made of.", "quantifier": "every program of such calls, every number of objects, every keys and values", "why_tests_cant": "Overlapping copies, overlong texts and moved blocks usually go unnoticed in a test; all programs.", "anchors": ["src/strmap.c:sm_put", "src/strmap.c:sm_delete", "src/strmap.c:sm_enum", "src/trax.c:trax_properties_append", "src/trax.c:trax_properties_get"]}
{"id": "C160", "title": "A client takes only answers as answers", "statement": "Whatever a tracker sends, or when it ends, trax_client_wait returns state with the region and properties that the tracker sent for each object, or quit, or an error.", "quantifier": "every input, every number of objects", "why_tests_cant": "All sequences of messages, and every point at which the tracker may end.", "anchors": ["src/trax.c:trax_client_wait", "src/message.c:read_message"]}
{"id": "C161", "title": "A client takes from an introduction what it says", "statement": "For every introduction a client accepts, the version is one that exists, and the kinds of regions and images it will send and the channels it will ask for are exactly those that the tracker named, in the documented notation; names it does not know add nothing.", "quantifier": "every introduction: every version and every list of names", "why_tests_cant": "All lists of names and all versions, also of trackers that do not exist yet.", "anchors": ["src/trax.c:client_setup", "src/trax.c:region_formats_decode", "src/trax.c:image_formats_decode", "docs/protocol.rst"]}
{"id": "C162", "title": "Errors are explained", "statement": "After a call that fails, trax_get_error gives a text that tells why this call failed; after a call that succeeds it gives none; asking does not change it.", "quantifier": "every handle, every call, every input", "why_tests_cant": "All ways in which calls can fail, in every history.", "anchors": ["src/trax.c:trax_get_error", "src/trax.c:set_error", "src/trax.c:clear_error", "include/trax.h:trax_get_error"]}
{"id": "C163", "title": "Region functions keep their memory in order", "statement": "Programs that create, copy, convert, read, write, change, compare and release regions in any order never use or release memory that was already released, copies are independent of their originals, and after all regions and texts have been released the memory is as before.", "quantifier": "every program of region calls, every memory it starts in, both ways of rasterization", "why_tests_cant": "All orders of calls and all regions; lost blocks do not change any answer.", "anchors": ["src/region.c:region_convert", "src/region.c:region_release", "src/region.c:region_parse", "src/region.c:region_string", "src/region.c:region_compute_overlap", "src/region.c:rasterize_polygon", "src/trax.c:trax_region_release"]}
{"id": "C164", "title": "Images and image lists in memory", "statement": "An image list refers to the images that are put into it: what is written to an image through any pointer is read through every other pointer and every list that has it. An image lasts until it is released, through its pointer or by clearing a list that has it; releasing a list leaves its images alone. A program that uses no image or list after its release has no undefined behaviour, every list whose images are there can be cleared, and the memory in use is that of the images and lists that are not released.", "quantifier": "every program of calls that create, read, write and release images, copy pointers, and create, fill, read, clear and release image lists; every content of fresh memory", "why_tests_cant": "All orders of calls, all ways in which pointers are shared between variables and lists; lost or stale blocks show in no answer.", "anchors": ["src/trax.c:trax_image_release", "src/trax.c:trax_image_create_memory", "src/trax.c:trax_image_create_buffer", "src/trax.c:trax_image_list_clear", "src/trax.c:trax_image_list_release", "src/trax.c:trax_image_list_get", "src/trax.c:trax_image_list_set", "include/trax.h:trax_image"]}
{"id": "C165", "title": "Python: exceptions tell why", "statement": "When a call of a Python client or server fails in the library, it raises a TraxException whose text says what was tried and gives the library's explanation of this failure; when the server has ended the session, the text says so and gives the server's reason.", "quantifier": "every state of the client or server, every call with any arguments, everything that the other side sends", "why_tests_cant": "All ways in which calls can fail, in every history of the session.", "anchors": ["support/python/trax/client.py:Client.initialize", "support/python/trax/client.py:Client.frame", "support/python/trax/server.py:Server.wait", "support/python/trax/server.py:Server.status", "support/python/trax/__init__.py:TraxException", "src/trax.c:trax_get_error"]}
{"id": "C166", "title": "traxclient with a tracker written in Python", "statement": "A tracker written in Python with the package's server and the documented loop is supervised by traxclient as documented: the loop gets each frame once and in order, the result has its answers and the failures, an exception in the loop ends the run with the status of an error, and a tracker that leaves the loop ends the session without an error. The static tracker of the package gives the region of the first frame for every frame.", "quantifier": "every tracker written with the loop, every sequence of any length, all options, every failure, exception and other output, every schedule of the watchdog", "why_tests_cant": "All trackers, sequences of every length, every moment of an exception and every schedule of the watchdog.", "anchors": ["docs/api_python.rst", "support/tests/static/python_static.py", "support/python/trax/server.py:Server", "support/client/cli.cpp:main", "support/client/client.cpp:TrackerProcess"]}
{"id": "C167", "title": "A tracker whose process ends between two requests", "statement": "When the process of a tracker ends after an answer and there is another frame to track, traxclient ends with the status of an error and writes no result; when no frame is left, or the answer counted as a failure so that another process is started, the result is that of the run without the end of the process. It does not matter when the operating system tells about the end of the process.", "quantifier": "every tracker, every answer after which its process ends, sequences of every length, every number of failures, every moment at which the operating system reports the end, every schedule of the watchdog", "why_tests_cant": "All crash points between requests, with all reports of the operating system and all schedules of the watchdog; the project's badtracker covers six of them.", "anchors": ["support/tests/bad/badtracker.cpp:main", "support/client/cli.cpp:main", "support/client/client.cpp:TrackerProcess", "src/trax.c:trax_client_wait", "src/trax.c:trax_client_frame"]}
{"id": "C168", "title": "The client of the tutorial", "statement": "The client program of the tutorial starts the tracker with the words it is given, initializes it with every fiftieth image and the region of that frame in groundtruth.txt, updates it with each other image in order and once with each, gets the regions that the tracker found, and leaves its loop when the tracker requests the end of the session.", "quantifier": "every tracker that follows the documentation and wants colour images as paths, sequences of every length below 10^8 - 1, every schedule of the watchdog, every frame at which the tracker ends the session or crashes", "why_tests_cant": "Sequences of all lengths, trackers and crash points; there is no test for the programs of the tutorials at all.", "anchors": ["docs/tutorials/client/client.cpp:main", "docs/tutorial_client.rst", "support/client/client.cpp:TrackerProcess", "support/client/client.cpp:load_trajectory"]}
{"id": "C169", "title": "The files of the tracker of the tutorial", "statement": "The tracker program of the tutorial (before its integration) reads its images from the lines of images.txt and its region from region.txt, takes the part of the first image under the region as its template, and writes one line per image to output.txt: first the region, then what the tracker found in each other image, in order. It can read its own output as a region.", "quantifier": "every list of images, every region whose numbers fit into an int, every size of the image, every tracking function", "why_tests_cant": "Files of all lengths, with and without a line end at their end, and all positions of a region relative to an image; there is no test for the programs of the tutorials at all.", "anchors": ["docs/tutorials/tracker/ncc.cpp:readsequence", "docs/tutorials/tracker/ncc.cpp:readrectangle", "docs/tutorials/tracker/ncc.cpp:writerectangles", "docs/tutorials/tracker/ncc.cpp:NCCTracker::init", "docs/tutorials/tracker/ncc.cpp:main"]}
{"id": "C170", "title": "The search of the tracker of the tutorial", "statement": "The tracker of the tutorial finds a rectangle in each image: with the size of the region of the initialization, in the image, and in a window around the rectangle before. An object that is found at its place has the same rectangle in each image. If an image is too small for the search, the rectangle before is given once more.", "quantifier": "every number of images, every size of the images, every region that touches the first image, every result of the search that is inside of the part that is searched", "why_tests_cant": "All positions of a region relative to the borders of an image, odd and even sizes, and sequences of all lengths; there is no test for the programs of the tutorials at all.", "anchors": ["docs/tutorials/tracker/ncc.cpp:NCCTracker::init", "docs/tutorials/tracker/ncc.cpp:NCCTracker::update"]}
{"id": "C171", "title": "The tracker of the tutorial for MATLAB", "statement": "The tracker of the tutorial for MATLAB gives one row per image: first the region, then a rectangle inside of the image and in a window around the one before. An object that is found at its place has the same row for each image. A polygon is taken as the smallest rectangle around it.", "quantifier": "every number of images, every size of the images, every region and polygon of whole numbers, every result of the search that is among the places that are compared", "why_tests_cant": "All positions of a region relative to the borders of an image and sequences of all lengths; there is no test for the programs of the tutorials at all.", "anchors": ["docs/tutorials/matlab/ncc_tracker.m:ncc_tracker", "docs/tutorials/matlab/ncc_tracker.m:ncc_initialize", "docs/tutorials/matlab/ncc_tracker.m:ncc_update"]}
{"id": "C172", "title": "The process of a tracker and its status", "statement": "After the process of a tracker has been started, what the library says of it follows its life: it is alive until it ends, and after that its exit code or (negated) its signal is reported, however often and in whatever order one asks. A signal is only sent to a process that cannot have been replaced by another one with the same number. No ended process is left behind when the object is destroyed. An object can be started again after its process has ended.", "quantifier": "every sequence of calls of the methods, every moment and way in which the process ends, every number of the process and of its descriptors", "why_tests_cant": "The process can end between any two calls; a test sees one of these moments, and the reuse of process numbers cannot be provoked.", "anchors": ["support/client/process.cpp:Process::start", "support/client/process.cpp:Process::is_alive", "support/client/process.cpp:Process::stop", "support/client/process.cpp:Process::kill", "support/client/process.cpp:Process::get_handle", "support/client/process.cpp:Process::~Process"]}
{"id": "C173", "title": "The measured time", "statement": "The time between two readings of the clock is measured to the microsecond, however often the timer has been initialized, and the times of parts that follow each other add up to the time of the whole.", "quantifier": "every two or three times of a clock that does not go back, every number of initializations", "why_tests_cant": "All pairs of times, with all parts of a second below a microsecond; a test measures the few times it takes itself.", "anchors": ["support/client/timer.cpp:timer_init", "support/client/timer.cpp:timer_clock", "support/client/timer.cpp:timer_elapsed"]}
{"id": "C174", "title": "The log on the console of MATLAB", "statement": "When the client for MATLAB logs to the console, everything that its threads log appears there, once, with no text inside of another one, and the texts of each thread in their order.", "quantifier": "every number of threads, every sequence of texts that they log and of calls that print the log, every interleaving of their steps", "why_tests_cant": "The logging thread and the main thread run at the same time; a test sees one interleaving of their steps.", "anchors": ["support/matlab/traxclient.cpp:mexstream", "support/matlab/traxclient.cpp:LOGPUSH", "support/matlab/traxclient.cpp:mexFunction"]}
{"id": "C175", "title": "The threads of a client do not wait for each other forever", "statement": "Whatever is called on the object for a tracker process, and whatever its watchdog and its logger are doing meanwhile, no call waits forever for a mutex: all calls return, the destructor ends, and no mutex is left locked.", "quantifier": "every sequence of calls, every number of turns of the watchdog and the logger and all they can meet (states of the process, lines in the streams, callbacks), every schedule of the three threads that forgets none of them", "why_tests_cant": "A deadlock needs an interleaving of three threads that a test run may never meet.", "anchors": ["support/client/client.cpp:TrackerProcess::State::stop_process", "support/client/client.cpp:TrackerProcess::State::start_process", "support/client/client.cpp:TrackerProcess::State::watchdog_loop", "support/client/client.cpp:TrackerProcess::State::logger_loop", "support/client/client.cpp:TrackerProcess::State::register_callback", "support/client/threads.cpp:Mutex::acquire", "support/client/threads.cpp:Lock"]}
{"id": "C176", "title": "Messages for debugging", "statement": "In a library that is built for debugging, every message is written, in order, to the stream that was chosen (the standard output if none was), with the line and the name of the file below the directory of the sources, while debugging is switched on, by a call, by TRAX_DEBUG in the environment or when it was built; nothing is written otherwise, and the library does nothing undefined.", "quantifier": "every build, environment, sequence of calls and messages", "why_tests_cant": "It is about all orders of calls, all builds and environments, and all names of files.", "anchors": ["src/debug.c:__debug_enable", "src/debug.c:__is_debug_enabled", "src/debug.c:__debug_set_target", "src/debug.c:__short_file_name", "src/debug.h:DEBUGMSG", "src/trax.c:compare_prefix"]}
{"id": "C177", "title": "The images in the test utility", "statement": "The images that the test utility carries in itself come out as they were stored: a copy is complete and nothing is written behind its buffer, a callback gets all bytes in order, a name that is not there is reported, and data that cannot be decompressed are reported as well.", "quantifier": "every table of resources, name, length of the data, way of a correct decompressor to use its input and to make its output", "why_tests_cant": "It depends on how the decompressor divides its work, and on lengths of data that the utility does not carry.", "anchors": ["support/client/tester_resources.c:tester_copy_resource", "support/client/tester_resources.c:tester_get_resource", "support/client/tester_resources.c:tester_inflate_resource", "support/client/tester_resources.c:tester_has_resource", "support/client/tester_resources.c:tester_get_length"]}
{"id": "C178", "title": "The texts of images and regions in Python", "statement": "The text (str) of an image tells what it is: the path or the URL between quotes, the size and the format of an image in memory, the format and the length of an encoded image; that of a mask tells its size and offset, that of a rectangle its four numbers, that of a polygon the number of its points and that of a special region its code. There is a text for every image.", "quantifier": "every path and URL, size, format, data and offset", "why_tests_cant": "It is about all paths, sizes and data.", "anchors": ["support/python/trax/image.py:FileImage.__str__", "support/python/trax/image.py:URLImage.__str__", "support/python/trax/image.py:MemoryImage.__str__", "support/python/trax/image.py:BufferImage.__str__", "support/python/trax/region.py:Mask.__str__", "support/python/trax/region.py:Rectangle.__str__", "support/python/trax/region.py:Polygon.__str__", "support/python/trax/region.py:Special.__str__"]}
