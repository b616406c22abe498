# A Lean 4 model of votchallenge/trax

This document says what is modelled, how each property of `properties.jsonl` is
proved, what is trusted, and where the code disagrees with a property.

## 1. Trusted base

* Lean 4.33.0's kernel. Every property theorem depends on at most `propext`,
  `Classical.choice` and `Quot.sound`; `Verif/Audit.lean` collects the axioms of
  every theorem named in `MANIFEST.json` and fails the build if there is another
  one. No own axioms, no `sorry`/`admit`, no `native_decide`, no `bv_decide`.
  Lean's `Std` and the Mathlib modules imported are checked by the same kernel.
* The reading of `/repo`: the model is a hand translation; the code is not run.
  Every definition cites the lines it models and says where it simplifies.
* External behaviour taken as given (parameters or definitions of the model):
  * `read`/`recv` return a non-empty chunk of the next bytes, or fail (`<= 0`);
    `write`/`send` accept any prefix length or fail. The schedule is universally
    quantified. In the two-party theorems (C55, C56, C65, C78) the connection
    delivers all bytes in order.
  * `malloc` and `new` never fail; heap blocks are never reused, so that every
    access to freed memory is visible as such. Contents of fresh blocks are
    parameters of the model.
  * `isalnum`, `isdigit`, `tolower` are those of the "C" locale; `char` is
    signed (x86/ARM-Linux gcc convention used by the project's builds).
  * `printf("%d")`, `printf("%.4f")`, `printf("%f")`, `strtod`, `atof`, `atoi`
    behave as in C99/IEEE-754 (correctly rounded, round-to-nearest-even);
    they are written out as definitions over integers in Model/Float,
    Model/NumText and Model/Decimal.
  * `float` and `double` operations (`FLT_EVAL_METHOD` 0) round to nearest even;
    the sign of NaN is not modelled. A conversion to an integer type that does
    not fit is undefined behaviour, as is signed overflow of `int`.
  * A new file gets the lowest free descriptor; `posix_spawn` copies the table of
    descriptors and applies the actions in order; `getenv` returns the first entry
    with the name; `std::map` is ordered by the bytes of the keys (C94–C99).
  * Pointers that callers pass are valid (or `NULL` where that is a case of the
    model); C strings are terminated.
* Asserts are taken as enabled (the library compiled without `NDEBUG`): a failed
  assert is the outcome `abort`.

Undefined behaviour, failed asserts and endless loops are explicit outcomes of
the model, never assumed away. A write behind the end of a block that the code
can make without noticing is counted (`overrun`) where the following behaviour
is still of interest (base64, image and region decoding).

## 2. Conventions

* A C string is a `List UInt8` (`Str`). The modelled functions that stop at NUL
  are modelled with an explicit truncation.
* `/verif/lean/Verif/Model/*` : the model, one module per part of the code.
* `/verif/lean/Verif/Spec/*`  : small specifications, independent of the model.
* `/verif/lean/Verif/Lemmas/*`: helper lemmas.
* `/verif/lean/Verif/Props/*` : the property theorems only, each with an example
  that its hypotheses are met by a concrete, non-trivial case.
* A property that the code violates has a theorem `Cxx_..._false` (negation with
  a concrete witness) and a `Cxx_..._partial` theorem with the strongest
  restriction found.

## 3. What is modelled

| Code | Model |
|---|---|
| `src/strmap.c` | `Model/StrMap`: hash map with buckets, all operations |
| `src/trax.c` properties API | `Model/Properties`, `Model/PropertyOps` |
| `src/message.c` read/write | `Model/Message`, `Model/MessageOps`: byte-level state machine, chunked input, partial and failing writes, log |
| `src/buffer.h` | `Model/TextBuffer`: blocks, growth, extraction, lists of strings |
| `src/base64.c` | `Model/Base64`: encode/decode, declared lengths, number of bytes written |
| `src/trax.c` images | `Model/Image`: text codecs, row arithmetic |
| `src/trax.c` formats, channels | `Model/Formats` |
| IEEE numbers, `printf`, `strtod`, `atoi` | `Model/Float`, `Model/NumText`, `Model/Decimal`, `Model/FloatOps` |
| `src/region.c` codec | `Model/RegionCodec`: text codec over single precision values |
| `src/region.c` geometry | `Model/Geometry`: bounds, conversion, containment, windows, rasterisation, overlap |
| `src/trax.c` region API, autoconversion | `Model/RegionApi` |
| `src/trax.c` image and object lists | `Model/Lists`; on a heap with ownership: `Model/ObjectHeap` |
| `src/trax.c` client/server handles | `Model/Handle`: all calls of the session API over a byte stream, incl. aborts, undefined behaviour, divergence |
| `src/traxpp.cpp` wrappers | `Model/Wrapper` (reference counts), `Model/ListWrapper` (lists with their elements), `Model/WrapperValue` (Properties, Region), `Model/CppHandle` (Metadata, Image, `Handle::metadata`), `Model/Endpoint` (single-object methods of client and server) |
| `support/client/client.cpp` | `Model/Logger` (line buffer), `Model/LogThreads` (logger thread, flushing and resetting the log under all schedules), `Model/Watchdog`, `Model/Port`, `Model/Trajectory`, `Model/TrackerProcess` (starting, stopping, exchanges, with the watchdog at marked points) |
| `support/client/process.cpp` | `Model/Command` (splitting of the command), `Model/Environment` (the environment of the child, with `client.cpp` 310–334 and the choice of `trax_server_setup_v`), `Model/Descriptors` (pipes and tables of descriptors; POSIX part); stopping and polling in `Model/TrackerProcess` |
| `support/client/threads.cpp` | `Model/Lock` (recursive lock, all interleavings), `Model/TimedWait` |
| `support/client/cli.cpp` | switches `-e` and the command in `Model/Environment`; `Model/CliImages` (image lists, loading, sizes; without OpenCV); `Model/Runner` (tracking mode; the tracker is an arbitrary machine) |
| `support/opencv/opencv.cpp` | `Model/OpenCv` (conversions of images, masks, rectangles and points) |
| `support/matlab/helpers.cpp` | `Model/Matlab` (conversions of images, regions, properties, sets of formats and lists of images) |
| `support/matlab/traxserver.cpp`, `support/matlab/helpers.cpp` (`get_string`, `get_flags`, `get_argument_code`, `is_property_name`) | `Model/MexServer` (all operations; MATLAB arrays as in `Model/Matlab`) |
| `support/matlab/traxclient.cpp` | `Model/MexClient` (the named arguments and the loop; the tracker process and the callback are arbitrary state machines; the log and Octave are not modelled) |
| `src/traxpp.cpp`: containers | `Model/PropertyMaps` (`from_map`, `to_map`, `to_vector`, `operator<<`) |
| `src/message.c`, `support/client/client.cpp`: sockets | `Model/Sockets` (descriptors only) |
| `support/python/trax`: names, texts, properties | `Model/Python` (Python, `ctypes` and NumPy from their documentation) |
| `support/python/trax/image.py`, `region.py` | `Model/PyValues` (arrays as memory, shape and strides) |
| `support/python/trax/server.py`, `client.py`, lists of `__init__.py` | `Model/PySession` (without the loggers and the time) |
| constructors of `support/python/trax/server.py`, `client.py` | `Model/PyStart` (streams given) |
| `file_logger`, `LOG_CHAR`, `LOG_BUFFER`; `Logger`, `FileLogger` of `support/python/trax/__init__.py` | `Model/LogCalls` |
| Python: `Wrapper`, `OwnerRef`, `_run_finalizer`, `_track_for_finalization`, `wrap_images`, `wrap_objects`, `wrap_image_list`, `wrap_object_list`, and the calls of `Client` and `Server`: which objects exist | `Model/PyMemory` | what the objects contain is left out; a Python object goes as soon as nothing refers to it (CPython); the address of a live Python object is unique |
| Python: what happens when a `Client` or `Server` goes, `quit` | `Model/PyDrop` | attributes are released in the order of assignment (CPython); the log calls of other messages are in `Model/LogCalls` |
| memory of the C library: what the functions of `src/trax.c` allocate and release, with lists, object lists, image lists, regions and handles | `Model/CMemory` | a property object, an image, a region, the copies of metadata texts and a stream are one block each (their own allocations are not followed); text buffers inside a function are taken and released in it and left out; blocks are never reused; allocation succeeds; socket streams are not followed |
| `support/client/cli.cpp` (435–775) as a whole | `Model/CliMain` | messages on the error output and with `-d` are left out; the exceptions of `TrackerProcess` are results of its calls; the measured times are a parameter; signals are not modelled |
| `support/tests/static/native_static.c` (56–188) | `Model/StaticTracker` | the log file, the messages on `stderr`, the waiting time (second argument) and the release of memory are left out; `stdout` is flushed by `fflush` only |
| `traxclient` with a tracker process | `Model/TrackerLink` | the tracker runs when the client waits for it; pipes are reliable; what the operating system says of the process is a function of the tracker's state and the moment (`polled`); the watchdog can run at each marked point of a call, but not while the process starts |
| `support/client/player.cpp` | `Model/Player` | drawing, the window and debug output are left out; the video, the JPEG encoder, the user and the tracker are parameters; exceptions of the tracker process have one message for each method |
| `support/opencv/interactive.cpp`, `camshift.cpp` | `Model/CvTrackers` | drawing is left out; images, the user, and what `CamShift` computes are parameters; exceptions end the program like failed assertions |
| `docs/api_cpp.rst` 393–437 | `Model/LoopTracker` | the functions that initialize and update the tracker are parameters; its other output gets into the stream before or after its reply; a function can also leave the loop or crash (`Fate`), after whole lines of output |
| `support/python/trax/client.py` 30–104, 168–288, `server.py` 46–86: interrupts, what constructors leave | `Model/PyInterrupt` |
| `src/strmap.c` 44–331, `src/trax.c` 220–241, 520–528, 1909–2046: blocks of memory | `Model/MapMemory` |
| `src/region.c` 64–127, 267–526, 539–803, 872–998, 1101–1271, `src/trax.c` 1690–1907: blocks of memory | `Model/RegionMemory` |
| `src/trax.c` 1531–1690, 2134–2183: images and image lists as structures with pointers | `Model/ImageMemory` (lengths and data given to `trax_image_create_buffer` agree) |
| `support/python/trax/client.py` 177–274, `server.py` 88–146: texts of exceptions | `Model/PyErrors` |
| `docs/api_python.rst` 49–65, `support/tests/static/python_static.py`, `support/python/trax/server.py` 148–174: trackers in Python as processes | `Model/PyTracker` |
| `support/tests/bad/badtracker.cpp`, and any tracker whose process ends between two requests | `Model/MortalTracker` |
| `docs/tutorials/client/client.cpp` | `Model/Tutorial` |
| `docs/tutorials/tracker/ncc.cpp` 54–245 | `Model/Ncc` (files, `main`), `Model/NccSearch` (positions; without the values of pixels) |
| `docs/tutorials/matlab/ncc_tracker.m` | `Model/NccMatlab` (positions; without the values of pixels and the texts of the files) |
| `support/client/process.cpp` 145–625 (POSIX), the status of the child | `Model/ChildStatus` |
| `support/client/timer.cpp` (Linux) | `Model/Timer` |
| `support/matlab/traxclient.cpp` 140–192, 465–497 (the log on the console) | `Model/MexStream` |
| `support/client/client.cpp` 225–688, 730–935, `support/client/threads.cpp` 122–236 | `Model/ClientLocks` | the accesses to mutexes only |
| `src/debug.h` 9–43, `src/debug.c` 11–87, `src/trax.c` 188–200 | `Model/Debug` | `tic` and `toc` are left out |
| `support/client/tester_resources.c` 7667–7890 | `Model/Resources` | `tinfl_decompress` (264–537) is a parameter; `mz_adler32` and `mz_crc32` are never called |
| `support/python/trax/image.py` 183–185, 206–212, 284–291, 334–339, `support/python/trax/region.py` 128–134, 168–179, 269–275, 354–365 | `Model/PyText` | how a `float` is written is a parameter |
| `support/opencv/opencv.cpp` 153–198 | `Model/Drawing` | `cv::rectangle`, `cv::fillPoly` and `cv::polylines` are recorded calls; `cv::Mat::zeros`, ranges, `setTo` and the product of matrices by when they throw, from the documentation of OpenCV |
| `support/client/client.cpp` 505–540 and the messages in 253–439, 480, 645, 913 | `Model/DebugText` | `vsnprintf` for `%s` and `%d`; which message comes when is not modelled here (C84–C88 have the calls) |
| `support/client/getopt.c`, `support/client/cli.cpp` (436–538), `support/client/tester.cpp` | `Model/Options`, `Model/Tester` (the command lines; the test with the tracker as a parameter; signals, the temporary file and the unpacking of resources are not modelled) |

Not modelled: the operating system, processes and threads themselves
(but the interleaving of the watchdog with its caller is), the memory models of
C and C++ beyond what is said above, Windows branches, MATLAB itself, Python, `ctypes` and NumPy themselves,
OpenCV itself, locale handling, memory exhaustion, performance. In particular:

* `compute_polygon_overlap` and its helpers (`src/region.c` 1000–1097) are dead
  code and not modelled; the number of pixels returned by the rasteriser is not
  modelled (only the mask it draws).
* In the wrapper model, returning an object by value constructs it in place.
* In the client support model the tracker and the operating system are an
  arbitrary machine; a turn of the watchdog is atomic and falls on marked points
  of the calls (its counter has a finer model, `Model/Watchdog`); data races on the log
  buffers are not modelled (their events are atomic, `Model/LogThreads`).
* The lock is modelled over sequentially consistent memory.

## 4. Plan per property

Messages (Model/Message, Props/Message)

* C01 round trip: `read (wire m ++ rest)` from any reader state left by earlier
  calls returns `m` and leaves `rest`. Induction over the escaped text per state.
* C02 sequence: induction over the message list using C01.
* C03 chunking: the chunked reader simulates the flat reader; equality of results.
* C04 partial writes: induction over the write schedule; wire = concatenation.
* C05 failing writes: prefix property; the reporting part is violated
  (`write_message` drops the result): negation by witness, prefix part partial.
* C06 payload: counting newlines in the serialised form.
* C07 injectivity: corollary of C01.
* C08 foreign lines: induction over lines in the states prefix/pass.
* C09 bytes >= 128: violated after a first message (stale message type);
  witness; partial: before the first message such bytes are skipped.
* C10 end of stream: violated (stale type; truncated message is delivered);
  witness; partial: fresh reader, no complete prefix line.
* C11 malformed lines: violated; witness; partial: the recovery that does hold.
* C12 8-bit: violated; witness; the exact truncation behaviour as partial.
* C13 argument/property confusion: exact characterisation; violated in general.
* C14 keys: violated (`trax_properties_set` accepts any key); witness of an
  injected message; partial: valid keys are harmless.
* C15 totality: structural recursion on input plus suffix theorem.

Properties (Model/StrMap, Model/Properties)

* C16, C17, C18: refinement to `Str → Option Str` by induction over histories.
* C19: violated for `overwrite = 0`; witness; partial for nonzero.
* C20: decimal printing/parsing of 32-bit integers, `(int) strtod` exact in binary64.
* C21: violated for the empty string (uninitialised result); partial otherwise.

Base64/images

* C22, C23: induction on three-byte groups; counts for arbitrary texts.
* C24: path codec. C25: violated, witness and what is received. C26: value part
  proved, memory-safety part violated (one byte past the end). C27: violated
  (one extra byte), exact result proved. C28: violated (assert reachable,
  overflow), safe class proved. C29: violated for width > 1, offset arithmetic.

Formats/handshake

* C30: `decide +kernel` over the finite table of bit sets plus a masking lemma.
* C31: server_setup bytes read by client_setup, for all metadata (partial where
  custom properties use reserved keys). C32: over all inputs. C33: violated.

Regions codec

* C34: float32 rounding of integers: exact iff representable; violated beyond 2^24.
* C35: run-length code round trip, for masks with a foreground pixel; the empty
  mask aborts the decoder (negation).
* C36, C37: exact decimal rounding and binary rounding model.
* C38: violated (assert, heap overflow, NULL success); safe class proved.
* C39: autoconvert case analysis; violated for special/unsupported combos.

Geometry

* C40–C49: over exact numbers (rationals/integers) for coordinates, with the
  C conversions explicit; memory accesses explicit as index bounds.

Lists and protocol

* C50, C51: refinement to plain lists / functions.
* C52–C62: handle model over streams, histories by induction; violated parts by
  witness (C57 frame atomicity, C58 hang at EOF, C62 reason dropped in MOT).

C++ wrappers and client support

* C63–C65: reference-count machine and copy-on-write; violated parts by witness.
  C77, C78: value semantics of `Region` objects, single-object exchanges.
* C66: buffer invariant by induction; violated for lines that overflow the
  counter. C67: countdown machine over all schedules of whole turns; violated by
  interleavings. C68: violated at wrap-around. C69: tokenizer; violated, partial
  class. C70: save/load of text lines.

Added while the model grew

* C71: text of floats in properties. C72: polygon points. C73: rectangles and
  their windows. Between pixels: sums of multiples of 2^-k are exact, then what
  rounding half away from zero does to each end. The same for the corners of
  polygons (C143) and for cutting towards zero (C43). C74–C76: clones, getters and setters, mask rows.
* C77, C78: see above.
* C79: exactness of the computed side positions for whole coordinates, then the
  parity of a fold; violated by rounding for larger coordinates.
* C80: refinement of the nested loops of `traxclient` to a machine with one step
  per frame, by induction over the frames; violated for short lists. C81: an
  invariant of that machine; violated when frames are skipped.
* C82: invariant of the block under all uses; violated at 2 GiB.
* C83: invariant over all steps of all threads.
* C84–C87: invariants over histories of calls for every world; violated by turns
  of the watchdog during a start, by a flag that is not set, and by processes
  that a call starts and then refuses. C88: unfolding of the stop sequence for every
  number of answers. C89: integer arithmetic.
* C90: one exchange from any connected pair (as C41), then induction over the
  history; violated by special regions and by frames before the start. C91: on top
  of C90, unfolding of the methods of the classes.
* C92: the elements of the vectors are variables of the wrapper model of C63; the
  invariant of C63 plus one of the C lists, by induction over programs; violated by
  copies of lists. C93: from C64; violated for every list.
* C94: from C69. C95: the map as a sorted list, by induction over the assignments.
  C96: from C95 and the model of `getenv`; violated by nested clients. C97: the tables
  of descriptors with the lowest free number for a new file, for every table. C98, C99:
  invariant over histories of starts, ends and destructions; violated by inherited
  and uninitialised descriptors.
* C100: a grammar of all accepted texts (`Spec/Grammar.lean`), by induction over the fields and
  over the characters of each, with an invariant of the reader behind a name or a field.
  C101: the same invariant, and the four ways in which a field can break off.
* C102: by induction over the segments of a JPEG file. C103: by induction over lines and
  columns. C104: case analysis on the bits; violated by the order of the arguments.
* C105: a grammar of decimal numbers (`Spec/RegionText.lean`) with their rational values; up to eight decimals the
  rounding to double and then to single precision is the rounding to single precision, for all other numbers the two
  errors of rounding are added up.
* C106: by induction over the derivation of the text as a list of words (`Spec/Formats.lean`).
* C107: the constructor, `set_custom`, both server constructors, the introduction (C31) and `Handle::metadata` composed.
* C108, C109: as C64 and C77, by the invariant between memory and values (`Lemmas/Values.lean`); the specification
  (`Spec/CppHandle.lean`) gives every variable its own record or image.
* C110: what was agreed in the introduction (C31) is unchanged by every call; induction over the history.
* C111–C114: a schedule is a list of atomic events of the logger thread, the thread that uses or stops the tracker, the tracker
  and the program, over an explicit table of descriptors (`Model/LogThreads.lean`). Induction over the schedule with an invariant
  that ties both line buffers and the log to the texts of the streams (C111), to the text left when the tracker is stopped (C113), and the
  descriptors to the trackers started so far (C114).
* C115–C117: the helpers as functions on matrices with explicit rows of bytes (`Model/OpenCv.lean`); OpenCV's part (layout of `cv::Mat`,
  `cvtColor`, `imread`, `imdecode`) is taken from its documentation. Index arithmetic for the pixels, an invariant for the loop that copies the rows
  of a mask, and the lemmas about single precision numbers for the rectangles.
* C118–C122: the helpers as functions on arrays stored by columns (`Model/Matlab.lean`); what they use of MATLAB is taken from its documentation.
  All loops that copy pixels are handled by one invariant (`Fills`: the places written so far have the right bytes, the others are unchanged);
  index arithmetic with quotients and remainders; the properties by the refinement of C06–C08; names by the equivalence of the comparison in lower case
  with a relation between letters.
* C123–C125: `getopt` as a function on the words and its static variables, with undefined behaviour for reads behind the end of a word
  (`Model/Options.lean`). A relation says how a command line is read (`Spec/Options.lean`); induction over it gives the sequence of calls, induction over the
  words that every command line has a reading. The switches by an invariant that describes the settings after some items.
* C126, C127: the test as a function of a tracker that is an arbitrary state machine (`Model/Tester.lean`); induction over the frames and the initializations.
* C128–C130: `traxserver` as a function of its arguments, the number of results and the object it keeps (`Model/MexServer.lean`), on top of the C++ handle.
  What a user writes and gets is said by relations (`Spec/MexServer.lean`). `setup` by induction over the named arguments and C107; `wait` and `status` from the exchange of the C++
  single-object interface (C78); the ends from C52 and C62.
* C131: the loop of `traxclient` over an arbitrary tracker and an arbitrary callback, as state machines, with a record of what happens (`Model/MexClient.lean`). The rounds
  are a relation (`Spec/MexClient.lean`) that says what the callback is shown and what is asked of the tracker; by induction over the turns, with the answers so far as a ghost.
* C132: the loop over the named arguments, by induction over what the user wrote.
* C133: the functions on the memory of C64, `from_map` as a sequence of `set` calls; sorted lists with the same entries are equal.
* C134: a process with a table of descriptors, tracker objects and handles; the system is an arbitrary state machine that only has to give unused descriptors
  (`Model/Sockets.lean`). Two invariants by induction over the program: what an object has is open and its own; what is open has an object.
* C135: the functions on lists of texts; one lemma about sets of flags for the three tables, the tables themselves are in the specification.
* C136: the codec is compared with Lean's own UTF-8 encoding of characters; the property objects with maps of texts, by induction over the calls.
* C137: a NumPy array is a block of memory with type, shape, strides and start; the specification says where each element lies, and the pixels
  are compared through it for every index.
* C138: the same arrays for masks; `c_float` is rounding to the nearest `float`, the loop in `Polygon.create` by induction over the points.
* C139: the calls of `client.py` and `server.py` over the endpoints of `Model/Handle`; the exchange is reduced to C56, the history by
  induction. The specification describes what Python sees (dictionaries, lists of pairs) and not the containers of the library.
* C140: the constructors over C31 (introduction) and C135 (names); the dictionary of the client is compared key by key.
* C141, C142: the calls of the log function are derived from the reader and the writer of messages (`Model/LogCalls`); the file by an invariant over the
  calls (disk and buffer together are the text so far, the buffer is empty after a message); the Python logger by the decoding of each piece, for which
  the pieces of an escaped UTF-8 text are shown to be UTF-8.
* C143: the node of a side is the exact crossing truncated towards zero, by bounds on the rounding errors of the division, product and sum in double precision
  (`Lemmas/PolygonNodes`); a row of a convex polygon has its nodes at two places, because every side that goes up meets the row where the polygon ends on
  one side and every side that goes down on the other (`Lemmas/ConvexRows`); the fill of sorted nodes at two places and at different places
  (`Lemmas/PolygonRaster`).
* C144: an invariant of the memory of the library, the table of weak references and the variables of the program: the entries have different keys and wrappers,
  a wrapper is known exactly if a variable or a local variable refers to it, an owner refers to a block of its kind, no two own the same block, and a block exists
  exactly if it is owned or pending (`Lemmas/PyMemory`); each function of the package keeps it (`Lemmas/PyMemoryRun`).
* C145: by cases on the state of the session; the calls of the log function are those of `Model/LogCalls`, the messages those of C52.
* C146: the functions of `Model/Handle` are written again as programs over a heap of numbered blocks (`Model/CMemory`). A small calculus (`Does own f o Q`: started
  with the blocks `own`, the program `f` ends as `o` and leaves the blocks that `Q` allows, whatever other blocks are taken) gives each function's effect; induction over
  the loops and over the calls gives the rest. The outcome is tied to that of `Model/Handle`, so everything proved there holds of the programs with memory too.
* C147: `main` is put together from the models of its parts, with the tracker process, the files and the clock as parameters. `Spec/CliMain` says by rules what can happen in a frame
  (`Step`) and in a run (`Steps`), and what the exchanges with the tracker are (`Did`); induction over the frames of the procedure of C80 gives both together. For
  a tracker that does what it is asked, the run is shown to end, and the rules leave one shape.
* C148: the models of `main`, of `TrackerProcess`, of the two ends of the protocol and of the static tracker are put together (`Model/TrackerLink`): a call of `Client::wait` lets the tracker
  answer everything that was sent to it. An invariant ties the client's handle, the tracker's handle, the tracker's memory and the unread bytes together; it gives a process that goes
  through phases (idle, asked, tracking), and induction over the frames of the procedure of C80 gives the run.
* C149: `main` of `traxplayer` is modelled as a whole (`Model/Player`), over the tracker process of `Model/TrackerProcess` and arbitrary videos, users and worlds. The process is untouched after its constructor;
  turns of the watchdog keep it so (induction over their number); so the first question whether it is ready is answered with no, which gives the end of every run.
* C150: what happens in the turns of the loop is flattened to one list of things that the user does; the loop is a fold over it up to the first space key, and its state is followed from the last press to the end.
* C151: as C124, with the switches of `traxplayer`, from C123.
* C152: the loops of the two programs are modelled over the class `ServerMOT` (`Model/Endpoint`) and arbitrary images, users and results of OpenCV. From C59 an accepted request has an image of a declared
  format, which is a URL; `image_to_mat` gives an empty matrix for it. The first turn of the loops therefore never goes on.
* C153: the loop of the documentation is modelled over the class `ServerMOT` (`Model/Endpoint`) and two arbitrary functions, and put behind `traxclient` as the static tracker of C148 is. `Link.Serves` says what
  is needed of a tracker, call by call; from it `Cli.Phased` follows for the class `TrackerProcess`, including the restart after a failure, and from this and C80 the whole run, by induction over `Supervised`.
* C154: a step of the tracker of C153 can also leave the loop (the destructor of `Server` sends `quit`) or crash; what `waitpid` says of a process that has ended is a function of the moment (`report`), so that it
  can come late. A run is followed up to the last request with the course of C153, and the last wait with what the two outcomes of `Client::wait` do to `TrackerProcess` (`Link.Fails`, `Cli.Ends`).
* C155: the calls of the drawing functions of OpenCV are recorded (`Stroke`); the operations on matrices in the case of a mask are modelled by when they throw. Rounding is that of C117, truncation is `(int)`.
* C156: the messages of `TrackerProcess` are listed (`Report`) with format and arguments, `vsnprintf` expands the format, and a used `va_list` is indeterminate. The text is compared with a list of sentences, by
  induction over the sequence of messages.
* C157: the calls of the client with the flag of the logger (`Model/PyInterrupt`) are compared with the calls of C139; later calls by induction over histories.
* C158: what the constructors made and did not hand over is part of their result; that the client can decode every text of an introduction follows from an
  invariant of the reader, which never stores a byte above 127 (`Lemmas/ReaderAscii`).
* C159: the functions of `strmap.c` and `trax_properties_*` once more on a heap of blocks with sizes (`Model/MapMemory`); the invariant lists the blocks of every
  object (`Is`), induction over programs; the answers are those of the maps of C15–C19.
* C160: the loop of `trax_client_wait` is compared with the list of messages that arrive, by induction over the number of objects.
* C161: `client_setup` on an arbitrary introduction, with C106 for the lists of names.
* C162: case analysis over the calls; `Spec/ErrorText` lists the calls that are not allowed with their texts.
* C163: the ownership calculus of C146 for the containers and arrays of regions; programs of calls are compared with the same programs on values (`Spec/RegionMemory`).
* C164: the state in memory is a function of the state on values (`Lemmas/ImageMemory`, `stateOf`); each call in memory is shown to be the call on values, then induction over the program.
* C165: the calls of `Model/PySession` with the texts of their exceptions; case distinction over the ways in which the calls of the library fail, using C162 for calls that are not allowed.
* C166: the loop as a process behind `Model/TrackerLink`, around any function that computes the answer to a request; it serves (`Serves`) as the tracker `like` of C153 whose steps are those of the
  body, so that the simulation of C153 and C154 applies; the static tracker as an instance, by induction on the number of frames.
* C167: any program behind `Model/TrackerLink` is turned into one that ends after a turn (`Link.mortal`); as long as it lives it serves as the program does, and a state of its own (`Gone`) is
  added to the phases of a run. A request to the ended process is either refused, or its answer is the end of the input (`Ends`, which C154 uses as well). The tracker of the tests
  is an instance, by induction on the number of frames.
* C168: the client of the tutorial (`Model/Tutorial`) over the same process (`Model/TrackerLink`) and the same trackers (`Model/LoopTracker`). `Lemmas/Tutorial` adds what the runs of `traxclient` never do: the first request
  starts the process, and a tracker that is at work is initialized again. The run is described by `Taught` (`Spec/Tutorial`) and followed by induction. What happens after a `wait` without an answer is
  proved for any process whatever, from the flag that `TrackerProcess` keeps.
* C169: the file functions and `main` of the tracker of the tutorial (`Model/Ncc`). `std::getline` is modelled with its rule that a stream at its end leaves the string alone; the loop that reads the list gets a number of
  turns, so that "it never ends" is a statement about all numbers of turns. The search for the template is a parameter; the part of the image that becomes the template is computed over the integers.
* C170: `NCCTracker::init` and `update` (`Model/NccSearch`) with positions as twice their value, which is an integer. Where a template is found is a parameter that is inside of the part that is searched (documentation of
  `cv::matchTemplate`). The invariant is that the position is the centre of the last rectangle and that the template at that rectangle fits into the image; it gives, by induction over the images, that the part that is
  searched is never too small. The still object is taken to the file that the program writes with C169.
* C171: the same for MATLAB (`Model/NccMatlab`), over whole numbers. The places that are compared are modelled as the file selects them from the result of `normxcorr2`; where the template is found among them is a parameter.
* C172: the class `Process` with the operating system's side of its child (`Model/ChildStatus`): `waitpid` and the macros for its status are modelled as Linux defines them, and a child that runs can end between any two calls. The
  replies are compared with a specification that only knows the life of the child; signals and the destructor by an invariant over all sequences of calls.
* C173: `timer_init`, `timer_clock` and `timer_elapsed` (`Model/Timer`, Linux part) over whole numbers modulo 2^64, with the division of the result in the rational numbers.
* C174: the class `mexstream` (`Model/MexStream`): each access to its mutex, its buffer and the console is a step, threads are numbers with programs of calls, and a schedule is any list of threads. By an invariant over all schedules: there is
  an order of the texts that have been written that agrees with the order of each thread and is what console and buffer hold.
* C175: the functions of the client library as lists of accesses to its six mutexes (`Model/ClientLocks`), with all that they depend on as arguments. By an invariant over all schedules: each thread acquires mutexes in one order (watchdog, state of
  the process, process, log, console, signal; only the recursive one of the process a second time) and waits for threads without holding any, so that some thread can always go on; each step makes the rest smaller, so that every fair schedule
  ends. What is done between two accesses is assumed to end.
* C176: `debug.c` as a state with all calls (`Model/Debug`), the loops over texts with reads behind the NUL as undefined; by induction over the calls and over the texts. `compare_prefix` is shown to be the test for a prefix that `Model/Image`
  uses.
* C177: the loops over segments and turns of the decompressor (`Model/Resources`) with the decompressor as a parameter; its documentation is the hypothesis `Correct`, which a decompressor for stored data is shown to meet. By induction over
  the output that is still to come and over the segments.
* C178: the texts as functions of the image (`Model/PyText`), with the `repr` of a `bytes` object from the documentation of Python; that numbers can be read back from them by the lemmas on decimal numbers, and the paths by the lengths of the texts.

## 5. Disagreements between code and properties

Each line: what the code does against the property; the theorem is the witness
named in `MANIFEST.json` (`Cxx_..._false` or a name that says what happens).

* C05: the result of `write_message` is dropped, so a failed write is not
  reported, and after a transient failure the rest of the message is sent.
* C09: a byte above 127 in foreign output ends the read, which then reports the
  type of the previous message. C12: such a byte in a payload cuts the message.
* C10: at the end of the stream the type of the last message is reported again
  and again, and a truncated message is delivered.
* C11: after a malformed line the next message can be lost or changed.
* C13: an argument that looks like `key=value` arrives as a property.
* C14: keys are not checked when they are set; a key can inject a message.
* C19: `trax_properties_append` ignores `overwrite = 0`.
* C21: an empty value gives an uninitialised result; numbers out of range overflow.
* C25: only the scheme of a URL image arrives.
* C26: decoding a memory image writes one byte behind the buffer. C27: buffer
  images grow by one byte per hop. C28: some texts abort the decoder or overflow.
* C29: rows of memory images overlap, since the row stride ignores the pixel size.
* C31: custom properties in the protocol's name space and undeclared bits are
  lost; version 1 knows no channels. C33: an introduction without declarations
  or version makes the client use uninitialised or out-of-range values.
* C34: special codes with more than 24 significant bits change. C35: the text of
  a mask without foreground aborts the decoder; large offsets change. C37: NaN.
* C38: texts of commas write behind a block, wrong counts abort, large numbers
  are undefined behaviour, the empty text is a success without a region.
* C39: special regions and thin rectangles abort a client that has to convert.
* C40: bounds of masks far from the origin are rounded; the right bound of a rectangle less than a pixel wide is left of its left bound. C41: a polygon with all
  coordinates below `FLT_MIN` has no proper box. C42: the default mode loses one
  pixel. C43: the mask of a polygon is placed at a wrong row, and sub-pixel
  rectangles abort; a rectangle between pixels is cut towards zero, where
  rasterising rounds.
* C44, C45, C46: windows, point tests and rasterisation at the ends of the
  number ranges; point tests at negative positions read out of bounds.
* C48: overlap of regions without pixels is NaN. C49: boxes that share one
  column or row, and one-row regions, do not count their common pixels. A
  region above and to the left of the bounds ends the program (a mask of
  negative size), and a polygon that the bounds cut at its left end counts a
  pixel too much.
* C50: a list given its own element, appended to itself, or a NULL region.
* C51: bit 31 in a channel set overflows.
* C54, C57: a refused reply or frame has already sent messages. C55: after that
  the counts of objects disagree.
* C56: exchanges without objects; buffer images (C27).
* C58: waiting for a peer that is gone does not end (because of C10).
* C60: initialisation without a region (single-object interface).
* C62: the reason of a termination is lost in the multi-object interface.
* C63: self assignment, copies of moved-from objects and default lists release
  objects twice or never. C64: `clear()` of a shared object changes all copies.
* C65: the arguments of `trax_properties_append` are swapped: properties of
  replies are lost. C78: an empty `Region` in a reply is undefined behaviour.
* C66: a line of 2^31 bytes overflows the counter of the line buffer.
* C67: the counter of the watchdog is set without its lock; an answer in time can
  make the watchdog stop the tracker, and disarming or re-arming can be lost.
* C68: port 65535 is advertised as 9089.
* C69: the byte after a quoted word is dropped, two spaces at the end make a
  command unusable, and unusable commands dereference NULL.
* C70: as C34, C35 and C37.
* C72: an index outside of a polygon passes the assertion. C73: legacy mode; a
  side that goes through the centre of a pixel marks it or not, depending on the
  window; a rectangle that holds no centre can mark a pixel. C143: so do corners
  in the middle between two pixels.
* C77: writing pixels through one object changes the others.
* C79: for coordinates above 4096 the position of a side is rounded, and a point
  next to it is on the wrong side.
* C80: initialization regions from a file are not checked against the length of
  the sequence. C81: no time is written for frames that are skipped.
* C82: the size of a buffer overflows at 2 GiB less 4 KiB.
* C84: `tracking` is not set by the constructor; the watchdog deletes a process
  that ends while it is started, and the starting thread uses it afterwards.
* C85: after `reset` the flag `tracking` of the old process is still set. C86: a
  refused tracker keeps running, and the next call uses it. C87: the watchdog
  stays armed if no connection is established.
* C88: a tracker that outlives `SIGKILL` is reported as ended normally.
* C89: one second from a full second, and limits of two seconds and more, are
  refused by the system, so that there is no wait.
* C90: a start with a special region aborts the client; a frame before the start is
  accepted by all calls, but the client does not read the reply to it.
* C92: a copy of a list shares the array of raw pointers, but not the wrappers that
  keep the elements alive, and the end of a copy of a list that was made by its constructor
  frees the C list of the original; a list that is received into again keeps images of channels
  that are not received. An assignment shares in the same way, and the assignment of an
  `ObjectList` to itself frees its C list; a list that was moved from has a pointer that
  was never set. C93: `ObjectList::properties` returns a copy, so that the
  properties of an object of a list cannot be changed.
* C94: arguments with quotes, or that end in an apostrophe, are changed by the
  command line tool, or make it use a null pointer. C96: a client that is itself a
  tracker passes the variables of its own connection on to its trackers. C97: with dedicated
  descriptors and no standard error stream the tracker reads from its own error stream.
  C98: the client keeps the tracker's ends of the pipes open, and a second tracker
  inherits those of the first. C99: the arrays of descriptors are not initialised; a
  process that ended is overwritten without being destroyed when it is started again.
* C102: the size of an image in memory or in a buffer is asked for with a null pointer
  for the format, which is written to; JPEG files with EXIF data give wrong sizes. C103: a last line without a
  line break is not read. C104: `load_images` takes channels and formats, the calls
  pass formats and channels.
* C105: names that differ from that of a format in the last letter are taken for it, a name of
  one letter is a rectangle, and a name with a number of values that does not fit aborts the process. A number is rounded to
  double and then to single precision, which is not always the nearest single precision number.
* C107: `Handle::metadata` makes a new record from the formats, channels and texts: custom properties that arrived with the
  introduction cannot be read in C++.
* C108: copies of a `Metadata` object share their custom properties; `set_custom` on one of them changes all.
* C109: copies of an `Image` object share their pixels; `write_memory_row` on one of them changes all. A write to the
  second row of an image with several columns goes to the first row (see C29).
* C110: `TRAX_PARAMETER_REGION` and `TRAX_PARAMETER_IMAGE` are declared and never answered; the multi-object mode of a server
  with a version below 4 is an uninitialised variable.
* C111: the logger thread flushes an unfinished line after a second without output; a line of the other stream then gets into its middle.
* C112: `flush_streams` gives the rest of the error stream to `client_logger`, which does not look at the verbosity: a silent client
  writes it to the log.
* C113: the error stream is read by the logger thread into one buffer and by `flush_streams` into the other; `reset_logger` then empties
  both. A last line without a line end is lost, although the logger thread has read it, and a line that both read is torn.
* C114: `logger_loop` forgets the descriptor only when it reads nothing while a tracker is running. After `stop_process` it goes on
  reading at the number of the closed descriptor; a file that the program opens next usually gets this number, and its contents go to the log.
* C115: `image_to_mat` and `mat_to_image` call `cvtColor(…, COLOR_BGR2RGB)` for every format; OpenCV throws for one channel, so that no grey image
  can be converted.
* C116: `region_to_mat` writes row `i` at `(i + y) * width + x` although the rows of the matrix are `width + x` bytes apart, does not clear the
  matrix, and writes outside of it for negative `x` or `y`; `mat_to_region` copies one block although the rows of a part of a matrix have gaps.
* C117: rectangles go through single precision; `region_to_rect` of a special region rounds uninitialised variables; `points_to_region` aborts with fewer
  than three points.
* C118: `image_to_array` calls `get_path` for a URL, whose assertion fails; `array_to_image` refuses the structure that `image_to_array` makes
  of an image in a buffer, and aborts for an array without rows.
* C119: `region_to_array` writes before the array for masks with a negative position; `array_to_region` refuses the array of a special region.
* C120: `cell_to_parameters` demands a vector and reads key `i` at `i` and value `i` at `i + rows`, so that only one property can be read; a column is
  read beyond its end. `parameters_to_struct` changes the keys that are not names of fields.
* C121: `get_flags` refuses the empty list that `decode_region` and the others make of an empty set.
* C122: as C118 for the images; `ImageList::set` of `array_to_images` does not check the channel.
* C125: `traxtest` declares `-I` without an argument and then gives its argument, a null pointer, to `atoi`.
* C126: `traxtest` copies 320 * 240 bytes into an image with three bytes per pixel; the rest of what it sends is uninitialised memory.
* C127: `traxtest` does not wait for the answer to the last image of a session.
* C128, C130: the loops over named arguments count all arguments, not those after the fixed ones, so a name without a value is followed by a read beyond the arguments.
* C129: parameters of `traxserver('status', …)` are lost (see C65); the documentation calls the operation `state`, which is refused.
* C130: `traxserver('quit')` without a reason reads beyond the arguments while there is a session; a second `setup` leaks the first one, whose client is not told.
* C131: `Client::wait` adds the properties of an answer to those of the caller, and `traxclient` gives it the same object each time, so old properties stay.
* C132: the loop over named arguments of `traxclient` ends before a name that has no value, which is not reported.
* C133: `Properties::set` passes C strings, so strings with NUL bytes are cut and entries of a map can collide.
* C134: `client_setup` does not destroy the stream when it fails; `create_server_socket` and `create_message_stream_socket_accept` do not close the socket when
  `setsockopt` fails; the constructor of `TrackerProcess` takes descriptor 0 for a failure; `create_message_stream_socket_connect` goes on with a
  socket it has closed, and its result NULL is not checked.
* C136: `Properties.__getitem__` passes the key without encoding it, which `ctypes` refuses; the exception of a value that is not UTF-8
  is lost in the function that C calls back, and the entry is missing; `c_char_p` ends at the first NUL.
* C137: grey arrays of two dimensions come back with three; only the size of an element is checked, not its type; a fourth dimension is
  ignored in the check but not in the number of bytes; asserts of the library end the process; the names of PNG and JPEG are exchanged.
* C138: `Mask.create` copies `nbytes` bytes from the start of the array without regard to its strides; a matrix without rows ends the
  process; `Mask.get` is the method of polygons and passes the wrong arguments; negative offsets cannot be normalised; `c_int` reduces codes.
* C139: `frame` with the default `objects=None` takes the length of `None`; `Server.status` passes its properties to a function that has no
  such argument; `Server.quit` sets the handle to `None` and `__exit__` uses it again; the reason of the client is not shown to the server
  (C62); properties with characters that are not ASCII are dropped from the message.
* C140: without a log `Client` passes `None` where `ctypes` needs a function object; `trax_metadata_create` asserts that there is a channel;
  special regions have no name in the introduction; the client stores its own entry under `multiobject`; the reader of messages drops the
  properties after a character that is not ASCII, and the client needs some of them.
* C141: `read_message` logs the newline with which it ends a message when the connection is closed.
* C142: `LOG_CHAR` passes the address of a single `char`, and `ctypes` takes a `c_char_p` up to the first NUL, which is outside of that variable; a NUL gives an empty
  `bytes`, which is not logged; `os.makedirs('')` raises an exception, so that `FileLogger("log.txt")`, `Server(..., log="log.txt")` and `Client(..., log="log.txt")` do;
  the call with NULL, at which the C logger empties its buffer, is ignored.
* C143: nodes that are equal to their successor are skipped, which makes up for corners of level sides of a convex polygon but changes the parity when two sides
  go through the same pixel or a corner lies inside a level side; nodes left of the window are truncated towards zero, into its first column; a crossing at a whole
  number can be computed just below it.
* C144: `Polygon.create` in Python creates the polygon before it looks at the points, and loses it if a point has fewer than two coordinates. `Server.wait` does
  not release the object list when the session ends, though the library gives one if objects were announced before.
* C145: CPython releases the attributes of an object in the order of their first assignment. `Client` and `Server` assign the log function before the handle, so that
  `trax_cleanup`, which sends the message that ends an open session and logs it, calls a function whose memory has been released. `Server.quit` sets the handle to
  `None`; a second call, like that at the end of a `with` block, raises `AttributeError`.
* C146: `trax_server_wait_mot` makes two arrays before it checks that the handle is alive and returns without them; the `continue` after an initialize message without
  arguments forgets the list, its array and the properties of that message, so a client that restarts often makes a server grow without bound. `region_convert` makes a container
  for the mask of a polygon and then overwrites the pointer. `client_setup` does not destroy the stream when it fails. The waiting functions release the caller's old
  `*images` and `*region` if the message has a wrong number of arguments, but overwrite them if an image or region cannot be read; the result and the variables are the same.
* C147: `load_trajectory` and `save_trajectory` return values that `main` does not look at: without a groundtruth file the sequence is empty and the program ends with 0; a result that
  cannot be written is lost and the program ends with 0. The bounds for `TRAX_BOUNDED_OVERLAP` come from the outer variable `image` (the images of the initialization; the images of
  later frames are in an inner variable of the same name), and `Bounds(0, 0, width, height)` includes the column `width` and the row `height`, which are outside of the image.
* C148: the path of an image with a byte from 128 on is not delivered (see C05), so that a run over a sequence with such a path ends with an error.
* C149: `traxplayer` checks `tracker.ready()` (player.cpp 323) before anything has started the tracker: the constructor of `TrackerProcess` does not, and `query()`, which `traxclient` and `traxtest`
  call first, is not called. So whatever the user, the video and the tracker do, no tracker is started, and the program ends with "Tracker process not alive anymore." as soon as a region is confirmed.
* C150: `on_mouse` does not order the corners (player.cpp 94): a drag to the left or up gives a rectangle of negative size. The key Q, announced as "cancel input", only drops the region; the loop goes on (player.cpp 133–136).
* C151: the help of `traxplayer` describes `-g`, the loop over the switches has no case for it (nor for `-G`): the program refuses it as unknown.
* C152: `interactive.cpp` 71 and `camshift.cpp` 62 give the image formats as the first argument of `Metadata` and the region format as the second one; the constructor takes them the other way round (`trax.h` 745).
  So both announce `trax.image=url` and `trax.region=polygon;mask`, refuse every image they could read, and never track. The tutorial (`docs/tutorial_linux.rst` 102) has the same exchange. Besides,
  `camshift.cpp` replies twice to an initialization (lines 105 and 178); if images were accepted, every later answer would reach the client one frame too late.
* C153: what a tracker prints does matter: a text that is not ended by a line break before the report hides the report, and a byte from 128 on ends the read of the client (see C09); the run ends
  with an error and without a result. So does a path with such a byte.
* C154: `docs/api_client.rst` 57, 65 and 73 say that `ready` tells a crash from a request to end the session, and `cli.cpp` 698–701 relies on it. But `TrackerProcess::ready` asks the client's handle
  (`client.cpp` 896–900), which `trax_client_wait` has marked as terminated when it has read `quit` (`trax.c` 830): it is false after both. What can get to lines 698–701 is a crash in the first request,
  because at the end of the input the type of the last message (`hello`) is taken again (C10), which is neither an error nor a state.
* C155: `draw_region` of a mask makes its stencil with width and height exchanged (`opencv.cpp` 189) and then multiplies the canvas with `*` (193), which is the product of matrices and throws for 8-bit elements: no
  mask can be drawn. `cv::Point(x, y)` (169) cuts fractions off, `region_to_rect` rounds.
* C156: `print_debug` (`client.cpp` 523–527) calls `vsnprintf` a second time with the `va_list` that the first call has used (it needs `va_copy`): undefined behaviour for a command of 1006 bytes or more with `-d`.
* C157: `Logger._interrupted` is set in `Logger.__call__` and never reset; `Client` looks at it after every call of the library.
* C158: `Client.__init__` wraps its handle (82) after the test for an interrupt (71); `Server.__init__` releases the description (73) after `custom.set` (67–68), which can raise.
* C159: `sm_put` copies a value onto itself with `strcpy` (200) when an object is appended to itself; lengths are kept in `unsigned int` (176–177, 193, 205, 209);
  `sm_enum` keeps a pointer to the pairs of a bucket (293) across callbacks, which may move them (231).
* C160: `trax_client_wait` has no branch for messages of other types (785–846): they use up the turn of an object, whose region stays the one that
  `trax_object_list_create` made. At the end of the input `read_message` returns the type of the last message (C10), which is hello after the introduction.
* C161: the −1 of `region_formats_decode`, `image_formats_decode` and `channels_decode` (374–440) is stored as a set of formats by `client_setup` (592–609), so that all
  bits are set; the version is not checked. docs/protocol.rst calls encoded images `data` (the code: `buffer`) and separates channels with commas (the code: semicolons).
* C162: `trax_client_wait` neither clears nor sets the error (770–850); `trax_server_wait_*` fails without a text when reading, decoding an image or parsing a region fails;
  `set_error` passes its `va_list` as an ordinary argument (545), so that numbers in texts are garbage; a reply with an object without region fails without a text (1421).
* C163: `region_convert` from a polygon to a mask (`src/region.c` 673–678) allocates a container and overwrites its pointer with that of the mask, so that every such
  conversion loses one block. The same happens in `trax_client_frame` and `trax_client_initialize` (C146).
* C164: `trax_image_list_clear` (`src/trax.c` 2146–2157) releases an image once for every channel that has it, so that an image that is set for two channels is
  released twice. Lists keep pointers (`trax_image_list_set`, 2178–2183): one to an image that was released with `trax_image_release` stays in the list.
* C165: `Client.initialize` (`support/python/trax/client.py` 205–206) raises its exception without the explanation of the library; the branch that has it (214–217) is never reached.
  `Client.frame` (263–266) asks for the explanation, but `trax_client_wait` never gives one while the session is open (C162), so that the text always ends in "Unknown".
* C166: as in C154, `traxclient` takes a tracker that leaves the `with` block for one that has crashed. Names and properties are encoded as UTF-8 by the Python package, but the protocol
  takes only 7-bit text, so that a tracker with such a name cannot be started. The loop of `docs/api_python.rst` 54–65 itself uses names that the package does not have.
* C167: no disagreement in the model, but the model leaves something out: `traxclient` does not ignore `SIGPIPE`. If the process ends between the check in `TrackerProcess::ready` and the write of the next request
  into its pipe, the operating system ends `traxclient` with that signal, in place of the message and the status of an error. (With a socket, `src/message.c` 633–637 prevents it.)
* C168: the tutorial breaks out of its loop `if (tracker.ready())` after a `wait` that failed, with the comment "The tracker has requested termination". But `ready` is false once the session has ended (C154), so that the
  branch is not taken (`C168_quit_false`); and the branch for errors has no code in it, so that the next `frame` throws an exception that nobody catches (`C168_errors_false`).
* C169: `readsequence` ends its loop at an empty string, but `getline` leaves the string alone at the end of the file: if the last line has no line end, the loop never ends (`C169_images_false`). `readrectangle` repeats
  the last number if numbers are missing (`C169_region_false`), `images[0]` is used without a test (`C169_empty_false`), and `init` limits the template to `cols - 1` and `rows - 1`, which leaves out the last column and row,
  and dies of an exception of OpenCV for a region outside of the image (`C169_template_false`).
* C170: if the region is over the left or upper border, the template is only its part in the image, but the result begins where the template is found and has the size of the whole region: an object that does not move seems
  to move to the border (`C170_border_false`). Where the last rectangle is given again, `p_size.width / 2` is a division of integers (`p_size` is a `cv::Size`), while the half was exact when the position was computed: left of the
  border the rectangle moves by one pixel for odd sizes (`C170_small_false`).
* C171: `center = size(region) - pad - 1` is one less than the number of valid places, so that the last column and row of places are never compared: an object at the right border seems to move to the left
  (`C171_border_false`), and if the region is as wide as the image there is no place at all and the program ends with an error (`C171_whole_false`). `ncc_initialize` takes polygons (`C171_polygon`), but `output(1, :) = region` fails for
  them (`C171_polygon_false`).
* C172: `~Process` sends `SIGKILL` and asks once with `WNOHANG`: a child that still runs then is a zombie until the client ends (`C172_zombie_false`). `start` gives up if `pid` is not zero, and nothing sets it back to zero, so that the second
  start of an object fails; it has set the status to -1 before, and the status of the first child is lost (`C172_restart_false`).
* C173: `timer_clock` and `timer_elapsed` are public, but `freq` is zero until somebody calls `timer_init` (`C173_init_false`).
* C174: `mexPrintf("%s", r.c_str())` stops at a zero, but the whole buffer is cleared (`C174_zero_false`). The last `LOGPUSH` of `mexFunction` is before the end of the block that destroys the tracker, so that its last output and the messages
  about its end stay in the buffer (`C174_end_false`); after an error they are printed (`C174_failure`).
* C175: the callbacks of the watchdog are called with `watchdog_mutex` locked, which is not recursive; `register_watchdog` locks it, too (`C175_register_false`).
* C176: `___stream` is only set by `__debug_enable` and `__debug_set_target`, which the library never calls: with `TRAX_DEBUG` in the environment of a library built for debugging, the first message (a wrong greeting of a tracker) is
  `fprintf(NULL, ...)` (`C176_environment_false`).
* C177: `tester_copy_resource` does not look at what `tester_inflate_resource` returns (`C177_failed_false`), and `tester_copy_callback` not at the size of the buffer (`C177_overrun_false`); `tester_get_resource` passes the table of the pointers to the segments to the callback in place of the data
  if there is no compression (`C177_plain_false`).
* C178: `trax_image_get_path` and `trax_image_get_url` give a `bytes` object, which `__str__` puts into the text without decoding it (`C178_path_false`); `IMAGE_BUFFER_JPEG` and `IMAGE_BUFFER_PNG` have the wrong values
  (`C178_format_false`); there is no name for `TRAX_IMAGE_BUFFER_ILLEGAL` (`C178_unknown_false`).

## 6. How the result is checked

`lake build` in `/verif/lean`. `Verif/Audit.lean` is generated from
`MANIFEST.json` by `tools/gen_audit.py`; it fails the build if a theorem of the
manifest does not exist or depends on an axiom other than the three above.
`vcheck` rebuilds the last commit.

## 7. Wrong programs

`tools/mutate.py` applies the edits of `seeded/mutants*.json` to a copy of the
model, rebuilds, and reports which theorems do not prove any more (a declaration
whose proof fails is replaced, so that all theorems that depend on it are found).
`seeded/LOG.jsonl` has one line per attempt with the claims that the edit makes
false and the theorems that failed.
