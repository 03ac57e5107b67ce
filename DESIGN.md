# Formal model of dtformats

The code under study is the Python library in `/repo/dtformats`, pinned.
It was read as text and was never run.
The model is written in Lean 4 under `lean/Verif`.

## How the model is organised

* `Verif/Py.lean` models the pieces of Python the code relies on: bytes, slices,
  file objects, integer conversions and exceptions as values.
* `Verif/Text.lean` has digits, padding, joining and splitting of texts.
* `Verif/DataFormat` models `data_format.py`: `structAt` is reading a structure at an
  offset by an arbitrary data type map, `dataAt` is reading data.
  `Verif/Sequence.lean`, `Slices.lean`, `Fields.lean` and `Holds.lean` have the lemmas
  about sequences of structures and about fields at fixed places.
* The other modules each model one file of the code, or a part of it:
  first the functions of the code, branch by branch, each with a comment that cites
  the file and lines it models; then a specification written without the helpers of
  the model, usually a writer of the format or a predicate about what bytes are where;
  then the proofs; and an `example` that shows a concrete case meets the hypotheses.
* A property that the code violates is stated as a proposition with a name that ends
  in `_claim`. A theorem refutes it with a concrete witness (`_claim_false`), and a
  theorem with the suffix `_partial` has the part that holds.
* Loops whose termination depends on the contents of a file are modelled with a fuel
  argument or as a step function. "Terminates" is then "there is a fuel that suffices"
  and "does not terminate" is "no fuel suffices".

## Trusted base

* Lean's kernel, and the axioms `propext`, `Classical.choice` and `Quot.sound`.
  No axioms of our own, no `sorry`, no `native_decide`, no `bv_decide`.
* The reading of the Python source: nothing ties the model to the code except the
  cited lines.
* The semantics given to Python built-ins in `Verif/Py.lean` (slicing, `int(text, base)`,
  `file.read`, `file.seek`, dictionaries that keep insertion order).
* `file.read` with a negative size reads everything in `Verif/Py.lean`, as `io.BytesIO`
  does. Where a size may be below -1 the models use `fileRead`, which refuses it with a
  ValueError as a file opened by `open(path, "rb")` does.
* External libraries are parameters or are given their documented behaviour:
  dtfabric (`MapByteStream`, `GetSizeHint`), zlib, lz4, snappy, zstd, dfdatetime,
  the `glob` module, the file system.
* Of dtfabric it is assumed that a structure of fixed size is mapped from exactly its
  bytes, that one with a size in it asks for the rest once it has the size, and that a
  string with a terminator is read up to and including the first terminator.
* ASCII, UTF-8, UTF-16 (C189, C193) and codepage 1252 (C196) are modelled as Python decodes
  them. In the models that are older than `Verif/Utf.lean` whether bytes can be decoded is
  a parameter or is left out, as the comments say; other codepages always are.
* The texts of dates and times are those that the documentation of dfdatetime has
  (`Verif/Dates.lean`, C190 - C192). In older models they are a parameter.

Not modelled: debug printing (unless a property is about it), logging, the scripts
that wrap the library apart from the parts that C149 and later are about, memory limits, Python recursion limits (mentioned where a
property touches them), and floating point apart from the scaling of Mach times (C126).

## Plan per property

The modules are those with the theorems; `MANIFEST.json` has their names.

| Property | Model | Proof |
|---|---|---|
| C01 data range refinement | `DataRange` state and calls over a parent file with arbitrary position interference | simulation against an in-memory file, induction over the calls |
| C02 containment | same | the negation by a witness with a negative size; `_partial` for non-negative sizes |
| C03 error atomicity | same | case analysis for every state |
| C04 chunked reading | read loop | induction on the remaining size |
| C05 open/close protocol | object state, parse outcome chosen by an oracle, set of live handles | invariant by induction over calls; negation of the handle claim by a failing parse |
| C06 exact reads | `_ReadData` over the file model | case analysis |
| C07 structure reads | the growing read loop, the mapper is an arbitrary function | invariant of the loop; termination with an explicit measure |
| C08 hexdump | the line list and the text | a parser of dumps is defined separately and proved to invert the dump |
| C09 prefetch equality | the three hash functions on bytes | induction by blocks of eight; arithmetic modulo 2^32 |
| C10 prefetch ranges | same | invariants of the loops |
| C11 SuperFastHash | the code's unbounded integers with masks | against the published algorithm over `BitVec 32` |
| C12 cache addresses | `CacheAddress.__init__` | bit field lemmas, injectivity |
| C13 allocation bitmap | the run printing loop | negation by a witness (last run is lost); `_partial` when the last bit is clear |
| C14 varints | `_ReadVariableSizeInteger` | induction on the encoding |
| C15 log round trip | block and record readers, file loop | a log writer is defined from the format; induction over fragments |
| C16 log termination | file loop over arbitrary bytes | measure: remaining bytes; page alignment invariant |
| C17 prefix compression | `_ReadTable` | a block writer with arbitrary sharing; induction |
| C18 sequence and type | same | arithmetic |
| C19 key prefixes | `_ReadKeyPrefix` | codec round trip |
| C20 CPIO termination | entry loop | negation by a witness (negative size text); `_partial` for headers without signs |
| C21 CPIO round trip | header codecs, padding, entry loop | a writer for each format; induction over entries |
| C22 CPIO lookup | the path dictionary | refinement to "first entry with the path" |
| C23 CPIO isolation | several data ranges over one file | corollary of C01 |
| C24 Spotlight varints | `_ReadVariableSizeInteger` | negation by a witness (five leading ones); `_partial` for at most four |
| C25 ASL strings | `_ReadRecordString` | codec round trip |
| C26 ASL termination | record chain | step function; negation by a cyclic file or proof under the increasing chain condition |
| C27 format strings | parse into segments, render | the regular expression is modelled as a tokenizer; induction over segments |
| C28 width and precision | `GetPythonFormatString` and the grammar of Python format specifications | negation by a witness; `_partial` when one of the two is absent |
| C29 file caches | ordered dictionary, open and close events | invariant over all histories |
| C30 image value cache | cache keyed as in the code | negation by a witness; `_partial` for histories without colliding keys |
| C31, C32 string references | range search | negation at a boundary; `_partial` away from boundaries |
| C33 trace identifiers | bit packing | arithmetic |
| C34 timesync selection | sort and search | properties of sorted lists |
| C35 tracev3 chunks | chunk loop | measure and alignment invariant |
| C36 object records | segment loop | induction over pages |
| C37 index traversal | pages as a finite map | pre-order on trees; negation of termination on cycles |
| C38 mapping file choice | fold | maximum and first tie |
| C39 globs | glob construction and matching | induction over characters; the unpacking error is modelled |
| C40 class value map | fold over the chain | last definition wins |
| C41 cache location | mask arithmetic | bit fields |
| C42 systemd chain | step function | negation by a cycle |
| C43 USN records | block loop | negation by a witness; `_partial` for full blocks |
| C44 change log | record framing | case analysis, progress |
| C45 fseventsd pages | page loop | progress |
| C46 IPP | tag loop | induction |
| C47 gzip | member loop, decompressor as a parameter | induction over members; negation for empty members |
| C48 EMF/WMF | record loop | negation by a zero size record |
| C49 BSM | token loop | framing; negation by size zero |
| C50 keychain | attribute readers | negation for negative integers |
| C51 paths | join and split on characters | induction |
| C52 addresses | rendering | injectivity |
| C53 Cache addresses give the documented size of a block range | address arithmetic (`ChromeCache/Props`) | exact value for all addresses, refutation |
| C54 The cache index table and entry chains are read completely and finitely | index table, chains as a map of addresses (`ChromeCache/Props`) | induction over chains; fuel |
| C55 LevelDB write batches survive reading | batch reader (`LevelDB/Records`) | writer of batches, induction |
| C56 LevelDB version edits survive reading | tagged values (`LevelDB/Records`) | writer of version edits, induction |
| C57 A LevelDB table file yields the entries of all its data blocks in index order | footer, index block, data blocks; the decompressor is a parameter (`LevelDB/Table`) | composition of C17 over the blocks |
| C58 LZ4 compressed Spotlight pages decompress to the concatenation of their blocks | block loop; lz4 is a parameter (`Spotlight/Pages`) | induction over blocks |
| C59 Lists of integers in Spotlight attributes are read back | list reader (`Spotlight/VarInt`) | exact result for all lists, refutation |
| C60 Every attribute of a Spotlight record is read | attribute loop (`Spotlight/Records`) | exact set of attributes read, for all records |
| C61 Spotlight streams maps give back the stored values | offsets and values (`Spotlight/Pages`) | induction over the values |
| C62 Walking the pages of a Spotlight store ends | page walk (`Spotlight/Pages`) | no fuel suffices on witnesses; measure otherwise |
| C63 Spotlight record descriptors lead back to their records | descriptors and pages (`Spotlight/Records`) | round trip |
| C64 Apple System Log records are all read with their strings | record chain and strings (`Asl/Props`) | induction over the chain |
| C65 Lists of numbers and offsets are displayed unambiguously | number formatters (`Formats/Props`) | parsers that invert them |
| C66 Byte streams are displayed with non-printable bytes escaped | byte formatter (`Formats/Props`) | parser that inverts it, refutations |
| C67 Displayed values line up in one column | alignment of values (`Formats/Props`) | arithmetic, refutation |
| C68 Lists of offsets show the offsets | offset lists (`Formats/Props`) | injectivity, refutation |
| C69 Product versions of scheduled tasks are shown with major and minor version | bit fields of a version (`Formats/Props`) | exact condition |
| C70 Times of aliases show the fraction of the second | time formatter (`Formats/Props`) | refutation; the part before the fraction |
| C71 Displayed structures show each attribute and end with an empty line | structure printer (`Formats/Props`) | induction over the attributes |
| C72 IPv6 addresses in log messages have the form of RFC 4291 | address formatter (`Formats/Props`) | parser for the groups, refutation |
| C73 Shared-cache strings files are read completely | header, ranges, identifiers, strings (`Unified/Strings`) | writer of files, induction |
| C74 Timesync databases are read completely and the records of the boot are used | header and record loops (`Unified/Trace`) | induction; no fuel suffices on a record of size 0 |
| C75 A trace file reader keeps nothing from the file before | state of the reader over files (`Unified/Trace`) | refutation by two files |
| C76 Strings and timesync directories are found relative to the trace file | path arithmetic (`Unified/Trace`) | induction on path segments, refutations |
| C77 A trace file reader can be closed and used again | state machine of open, close and lookups (`Unified/Caches`) | invariant over histories |
| C78 Strings files stay open while they are among the most recently used | cache with missing files (`Unified/Caches`) | invariant over histories |
| C79 An absolute address is attributed to the image that contains it | ranges of images (`Unified/Caches`) | search over lists |
| C80 Oversize data is found by process and reference | dictionary of oversize data (`Unified/Chunks`) | last writer wins |
| C81 Log entries can be read again | position of a generator (`Unified/Chunks`) | refutation |
| C82 All chunks of a trace file are delivered in order | chunk loop with chunksets (`Unified/Chunks`) | induction over chunks, alignment |
| C83 Every trace point of a firehose chunk makes a log entry | record loop and its local variables (`Unified/Chunks`) | induction over records; unbound variable as an error |
| C84 printf flags keep their meaning | flags of operators against a grammar of C (`Unified/Printf`) | all widths and values by cases |
| C85 Integer and string arguments are shown with the value that was logged | rendering of values (`Unified/Printf`) | composition of the tokenizer and the renderers |
| C86 Index keys are the paths of their segments | page values to paths (`Wmi/Index`) | induction over segments |
| C87 Mapping files of both versions are read as written | both layouts (`Wmi/Mapping`) | writers of both versions |
| C88 The size of the property values covers every property | offsets and sizes (`Wmi/Classes`) | induction over properties |
| C89 The key of an object record tells where it is | key segments (`Wmi/Index`) | split of a joined text |
| C90 Namespaces are found at any depth | rounds of a work set, order as a parameter (`Wmi/Classes`) | reachability by depth |
| C91 The cells of a repository file are walked to the two root nodes | bins and cells (`Wmi/Classes`) | measure; fuel |
| C92 The super classes of a class are collected to the base class | chain of classes (`Wmi/Classes`) | induction over the chain |
| C93 Every entry of a systemd journal is read with its data | entry arrays, entries, data (`Systemd`) | predicate about what is where, induction over the chain |
| C94 Every entry of a restore point change log is read with its records | entries and records (`Boundaries`, `ChangeLog`) | writer, induction |
| C95 EMF and WMF records tell where their data is | record offsets (`Wemf`) | exact offsets, refutations |
| C96 The whole of a BSM data token is read | data token (`Bsm`) | refutation; elements of one byte |
| C97 Both blocks of a time zone information file are read | header and the seven tables (`Tzif`) | writer of blocks |
| C98 Every cookie of a binary cookies file is read | pages, records, strings anywhere in the page (`Cookies`) | predicate about what is where, induction |
| C99 Every login record of a utmp or utmpx file is read and shown | entries, strings and addresses shown (`Records`) | writer; length of what is accepted |
| C100 Every entry of a Recycler INFO2 file is read | header and entry loop (`Records`) | writer; length of what is accepted |
| C101 The attributes of a Recycle.Bin metadata file are those of the file | header and both kinds of names (`Records`) | writer of both formats |
| C102 The parts of a restore point log do not overlap | header, data, footer (`Records`) | writer; exact condition for the sizes |
| C103 The entries of a custom destinations file are those of the file | category and entry loops, state of the object (`JumpList`) | writer of categories, induction; refutation by two files |
| C104 All entries of a DestList stream are read | header and entry loop (`JumpList`) | writer, induction; fuel |
| C105 All entries of Firefox cache files are read | header, record loop, block loop (`Firefox`) | writer of items, induction; refutation by a stale block |
| C106 The heading of a file reference key has the MFT entry and sequence number | heading of the key (`Amcache`) | characterisation of split at four zeros; refutations |
| C107 All values of a Windows Defender DetectionHistory file are read | value loop, tracking data, index of the values (`Detection`) | writer of values and of tracking data, induction; refutations |
| C108 The values of bookmark data are shown with what they stand for | records, arrays, table of contents (`Bookmark`) | relation between places of the file and what is shown; refutation |
| C109 A file mode in a log message is shown as kind and permissions | bit tests, table of kinds (`Unified/Decoders`) | bits of the value; injectivity; refutation |
| C110 A Windows security identifier in a log message is shown in its text form | structure, text (`Unified/Decoders`) | round trip through the bytes; splitting the text; refutation |
| C111 DNS headers, flags and counters in log messages | flags, three structures (`Unified/Decoders`) | fields of the flags as a record; cancellation in the text; refutation |
| C112 UUIDs and Open Directory membership details in log messages | UUID text, two structures (`Unified/Decoders`) | reading the digits back; strings up to their end |
| C113 A value of an unexpected size is shown as unsupported | the same decoders (`Unified/Decoders`) | exact condition for failing, refutation |
| C114 Codes in log messages are shown by their names | tables, look up (`Boundaries`, `Unified/Tables`) | tables decided entry by entry, induction over a table; refutations |
| C115 States of location services are shown completely | members, mappings (`Boundaries`, `Unified/Location`) | splitting the text; tables decided |
| C116 References to format strings and program counters of log entries | shifts and alternatives on numbers (`Unified/Values`) | bits; arithmetic; refutations |
| C117 Tracepoint records are read as the documentation says | readers of one field each, flags (`Unified/Points`) | round trip through the bytes, flags as bits; refutations |
| C118 The values of data items are those stored with them | slices of the values, with Python's indexes (`Boundaries`, `Unified/Values`) | ranges inside the data; refutations |
| C119 Backtraces of log entries are read completely | three arrays (`Unified/Values`) | round trip, induction over the frames; refutations |
| C120 The values of trace records come out in their order | sizes from the end (`Unified/Values`) | induction over the values; refutations |
| C121 A catalog is read as it was stored | readers of one field each, padding (`Unified/Catalog`) | round trip, induction over the arrays |
| C122 Processes, images and sub systems are found in the catalog | table by key, map by offset (`Unified/Catalog`, `Utf/Texts`) | invariant of the loop, keys are injective; refutations |
| C123 Oversize chunks of unified logging are read as stored | readers of one field each (`Unified/Dumps`) | round trip through the bytes; refutation |
| C124 Simple and state dumps become log entries with what was stored | readers of one field each, texts of a fixed size (`Unified/Dumps`) | round trip through the bytes; refutations |
| C125 The header of a tracev3 file is read as stored | readers of one field each (`Unified/Dumps`) | round trip through the bytes; refutation |
| C126 Scaling Mach times keeps their order and is exact | rounding to 53 bits on rational numbers (`Unified/Scale`) | monotonicity and error bound of rounding; refutation |
| C127 A log entry is made of what its trace point stores | record of an entry, parameters for strings and decoders (`Unified/Entries`) | composition of C80, C83, C116-C122 |
| C128 A trace point whose strings are not there does not stop the reading of the log | errors as values (`Unified/Entries`) | cases; refutations |
| C129 Class definitions of the WMI repository come out as stored | readers of one field each, data at offsets by Holds (`Wmi/Definitions`) | round trip through the bytes; refutations |
| C130 Qualifiers of the WMI repository come out as stored | loop over the descriptors with as much fuel as bytes (`Boundaries`, `Wmi/Definitions`) | induction on the qualifiers; refutation |
| C131 Instances of the WMI repository come out as stored | reader of the block, maps of the properties from C88 (`Wmi/Instances`) | induction on the properties; refutations |
| C132 References of object records tell where the data of the object is | readers of one field each (`Wmi/Instances`) | round trip through the bytes; refutations |
| C133 Instances of version 1 of the WMI repository are read with their class | readers of nodes at offsets, map built from the class definition (`Wmi/Tree`) | round trip through the bytes of all nodes; refutation |
| C134 All namespaces and instances of version 1 of the WMI repository are listed | recursion with a limit of nested calls (`Wmi/Tree`) | induction on the tree as it is stored; refutations by induction on the limit |
| C135 The instances of the class tree of version 1 of the WMI repository are listed | loop with fuel over the list, recursion with a limit (`Wmi/Tree`) | induction on the list and on the tree; no fuel is enough for a cycle |
| C136 All instances of a WMI repository with an index are listed with their values | loop over the keys, dictionary and cache as lists of items set, super classes with fuel (`Wmi/Repository`) | invariant of the cache by induction over lookups; round trip from the bytes of records by induction over the keys; refutations |
| C137 All namespaces of a WMI repository with an index are found | fold over the keys with the records seen, then the rounds of C90 (`Wmi/Repository`) | induction over the keys; composition with C90; refutation |
| C138 Property tables of a Spotlight store are read from their pages | loops over the entries of pages and over the chain of pages, the table as a list of items set (`Spotlight/Tables`) | round trip by induction over entries and pages; refutation |
| C139 Property tables of a Spotlight store are read from streams map files | the offsets as words, slices of the data file (`Spotlight/Tables`) | induction over the offsets; refutations |
| C140 Floating-point, string and reference values of Spotlight metadata are read | values as bits, text and lists of text (`Spotlight/Tables`) | round trips; refutations |
| C141 Record pages of a Spotlight store give their records | the page header, then plain, zlib or the LZ4 loop of C58 (`Spotlight/Store`) | round trip by cases; an invariant of the loop on zero bytes for the refutation |
| C142 Metadata items of a Spotlight store are found by their identifiers | state with the cache and the descriptors; the file as a sequence of readers (`Spotlight/Store`) | invariant that the cache agrees with the file over all sequences of look-ups; refinement of the dictionary to the last record; composition with C60, C63 and C138 |
| C143 Alias data of a Mac OS login item is read with all its values | header, record of version 2 or 3, then a loop over tagged values (`Alias`) | round trips by induction over the values; errors and progress of one value lifted to the loop; refutations |
| C144 Characters in messages are shown as printf shows them | type c of the format specifications of Python (`Unified/Signposts`) | cases on the range of the value; refutations for all widths |
| C145 Signpost values are shown between their marks | the decoders as functions of the kind, the operator and the value (`Boundaries`, `Unified/Signposts`) | the names differ before they end, so cancellation; composition with C84 and C85; refutations |
| C146 Mask hashes are shown without loss | base64 by groups of three bytes (`Unified/Signposts`) | induction over groups against a decoder by numbers; the quote is not in the alphabet |
| C147 All log entries of a trace file are delivered in order | generators as loops that yield a list and a result, over the models of C74, C80, C82, C121 to C124 and C127 (`Unified/Reader`) | a relation of chunks, entries and states; induction over its chains with the offset as invariant; refutation by a file with a loss |
| C148 Log entries before damage are delivered | as C147 (`Unified/Reader`) | the same induction with any data behind the chain |
| C149 Log entries are shown in order of time | the functions of heapq on lists, and the loop of pushes and pops (`Scripts/Heap`) | heap invariant by induction over sifts, permutation by swaps; refutation by four entries |
| C150 The JSON of log entries can be read | the lines of the script as texts; parents as an association list (`Scripts/LogJson`) | a JSON reader after RFC 8259 as specification; each line is read as its member, by induction over members, frames and entries; refutations by witnesses |
| C151 Damaged files are refused with a ParseError | the readers of C01 to C60, exceptions as values (`Errors`) | cases of each reader, induction over loops; where other exceptions are possible, the exact set and a witness |
| C152 An archive is decoded as the objects in it | the decoder on property lists as trees, the limit on recursion as a depth (`Scripts/Archiver`, `Scripts/Tight`) | what an archive holds as a relation by depth, induction over depth; refutation by a witness |
| C153 Data and identifiers of an archive can be read from their text | base64 and UUID texts (`Scripts/Archiver`) | reader after RFC 4648 as specification, induction over groups of three bytes; refutation |
| C154 Archives that cannot be decoded are refused | exceptions as values (`Scripts/Archiver`) | induction over the limit; refutations by witnesses |
| C155 What is printed for an archive is JSON | json.dumps on decoded values (`Scripts/Dumps`, `Scripts/Tight`) | the JSON reader of C150 as specification, extended by escapes with digits and by fractions; induction over depth; refutations by witnesses |
| C156 Every member of an archive gets a line with the hash of its contents | the hash script for CPIO archives (`Scripts/Hasher`, `Scripts/Tight`) | block reads by induction on the position; the archive specification of C21; refutation by a witness |
| C157 Files that are opened are closed, and objects are opened one file at a time | Open and Close of files (`Lifecycle`) | an invariant over all sequences of calls that refines what a user knows |
| C158 What is read from a file object does not depend on what the object was used for | reading file objects after other calls (`Lifecycle`) | the invariant of C157; prefixes by induction on the walk |
| C159 Chrome cache index files, data block files and entries are read with what they hold | index files, data block files and entries (`ChromeCache/Files`) (`ChromeCache/Files`) | round trips; exact conditions for acceptance |
| C160 The entries of a Chrome cache directory are printed | directories (`ChromeCache/Files`), the file system as a parameter (`ChromeCache/Files`) | case analysis; the chains of C54 |
| C161 Debug definitions are accepted as documented, and all of them are used | YAML documents of debug definitions, tables of formats (`DebugInfo`) (`DebugInfo`) | induction over attributes and documents; all formats |
| C162 Debug mode does not change what can be read | BSM files and Chrome cache entries with debug mode (`DebugInfo`) (`DebugInfo`) | the reader with debug mode is simulated by the one without, where tokens that cannot be shown are malformed |
| C163 The jump list script shows every shortcut of a jump list | the writer of scripts/jump_list.py as lists of calls (`Scripts/Shortcuts`) (`Scripts/Shortcuts`) | induction over entries, items, blocks and properties |
| C164 The values of the output writer are in one column | `WriteValue` (`Scripts/Shortcuts`) (`Scripts/Shortcuts`) | columns of tab stops |
| C165 The LevelDB script shows every entry of a stored table | scripts/leveldb.py on C57 and the logs (`Scripts/LevelDb`) (`Scripts/LevelDb`) | self-delimiting `repr`; end to end from stored tables |
| C166 The Spotlight script shows the attributes of an item in two columns | scripts/spotlight_storedb.py (`Scripts/Spotlight`) (`Scripts/Spotlight`) | columns of tab stops; induction over rows |
| C167 The keychain script shows the tables, columns and records of a keychain | scripts/keychain.py on C50 (`Scripts/Keychain`) (`Scripts/Keychain`) | induction over tables, columns and records |
| C168 The WMI repository script shows the instances of a repository | scripts/wmi_repository.py on C39 and C133-C137 (`Scripts/Wmi`) (`Scripts/Wmi`) | sorting as permutation and order; alignment |
| C169 An AMCache file is read with all its keys, and shown with them in debug mode | the four kinds of keys of `amcache.py` (`AmcacheKeys`) (`AmcacheKeys`) | induction over keys and values; refutations by hives |
| C170 The text output of the unified logging script shows every log entry in one line | text and shared-cache output of scripts/unified_logging.py on C73 and C147 (`Scripts/LogText`) (`Scripts/LogText`) | separators that do not occur in fields; stable order by C149; end to end from stored tables |
| C171 The analyzer shows the structures of a VHDX image by the members of their definition | all of `BinaryDataFormatAnalyzer` of scripts/analyzer.py with the definitions of vhdx.yaml (`Scripts/Analyzer`, `Scripts/Vhdx`) (`Scripts/Analyzer`, `Scripts/Vhdx`, `Uuid`) | invariant of what is kept by name; induction over members and elements; exact output for all files; witnesses for what is false |
| C172 What is shown of the records of a metafile in debug mode is what is stored | debug mode of both classes of wemf.py with all tables of names, and scripts/wemf.py (`WemfDebug`) (`WemfDebug`) | induction over records with what follows them; fields of [MS-WMF] as specification; raster operations evaluated in reverse Polish notation over the whole table; witnesses for what is false |
| C173 The configuration of a job file is that stored | job.py 175-216, job.yaml, job.debug.yaml and scripts/job.py (`Job`); structures read in pieces (`DataFormat.Progressive`); text of identifiers (`Uuid`) (`Job`) | parsers with laws (asks for more than there is and not beyond the structure, stable under more data) that compose; reading a file is the parser on its data, by induction over the requests; round-trip; exact text; witnesses for what is false |
| C174 The files beside a trace file are those of its log, and an image is read by the requested back-end | unified_logging.py 3431-3502, file_system.py 149-158, dfvfs_helpers.py 88-97, 158-192 and 269-309 (`Unified.Companions`) (`Unified/Companions`) | splitting of joined paths by induction over the segments; injectivity of names; refinement of the assignments to the last request by induction; decision logic; witnesses for what is false |
| C175 Debug mode shows every structure, and every member of it | the `.debug.yaml` and `.yaml` files of dtformats (`DebugTables`), data_format.py 489-563 and 804-815 (`DebugShown`) | decision over the whole table by the kernel; induction over the attributes for all values; injectivity of the formats; witnesses for what is false |
| C176 Debug mode does not change what is read of a WMI repository | wmi_repository.py 320-387, 515-560, 680-717, 1679-1713 and 2087-2137 with debug mode (`Wmi/DebugMode`) | case analysis of the readers; the length of the digits of a number; witnesses for what is false |
| C177 The attributes of a Spotlight database are shown as they were read | spotlight_storedb.py 446-556 (`_DebugPrintMetadataAttribute`, `_DebugPrintCocoaTimeValue`) on the attributes of C140 (`Spotlight/DebugText`) | case analysis of the value types and kinds of values; induction over lists; injectivity of decimals, hexadecimals and dumps |
| C178 Cookies of a Safari cookies file are shown whenever they are read | safari_cookies.py 28-68 and 240-306 in debug mode, with Python's `datetime` (Verif/Calendar.lean) (`CookiesDebug`) | agreement of ord2ymd with a calendar that counts days by induction; simulation of the reader with a reader that also writes |
| C179 The index of a Chrome cache is shown whenever it is read | chrome_cache.py 77-168 and 473-632 in debug mode (`ChromeCache/DebugMode`) | case analysis of addresses; induction over the table; the calendar of C178 |
| C180 The ranges of allocated blocks of a Chrome cache data block file are shown | chrome_cache.py 231-266, 309-322 and 350-377 in debug mode (`ChromeCache/Bitmap`) | the loops refine a scan of the list of bits; induction over the bits with an invariant for the open range |
| C181 All login records of a utmp or utmpx file are shown in debug mode | utmp.py 29-75, 94-111, 146-179 and 198-232, data_format.py 69-78 and 120-158, and what 695-725 writes (`UtmpDebug`) | the text of an entry equals a list of members applied to consecutive bytes; induction over the entries of the file |
| C182 The script shows the volume path and the entries of a restore point change log | scripts/rp_change_log.py 12-98, rp_change_log.py 43-84 and 252, on top of C44 and C94 (`Scripts/Journals`) | the attribute is None in every state that reading can reach; induction over the table of names |
| C183 The script shows the records of a USN journal | scripts/usn_journal.py 12-91, output_writers.py 54-60, on top of C43 (`Scripts/Journals`) | cases on the first record; induction over the records |
| C184 A restore point log is shown only in debug mode, with all its values | rp_log.py 14-126, data_format.py 69-108 and what 695-725 writes (`RpLogDebug`) | the run of reading with and without debug mode; the outcome as one equation for both |
| C185 All values of a time zone information file are shown in debug mode | tzif.py 34-416, data_format.py 69-78 and what 695-725 writes (`TzifDebug`) | the run equals the text of the values that C97 reads; induction over the numbered lines |
| C186 A structure is read by the definition of its name, whatever was read before | data_format.py 66, 565-588, 652-656 and 746-778 (`TypeMaps`) | invariant of the dictionaries by induction over the requests; identities by counting |
| C187 The scripts read a file with the reader of its kind | scripts/wemf.py 61-70, scripts/utmp.py 61-74, scripts/unified_logging.py 164-190 and scripts/firefox_cache1.py 61-73 (`Scripts/Dispatch`) | composition with the round trips of the readers; refutations by a metafile and a record |
| C188 The scripts report the values of Recycle.Bin files, cpio archives and Prefetch hashes | scripts/recycle_bin.py 70-89, scripts/cpio.py 198-214 and scripts/prefetch_hash.py 38-51 (`Scripts/Reports`) | reading the lines of the report back; cancellation from both ends for names of any characters |
| C189 Text stored in UTF-8 or UTF-16 comes out as the text that was stored | the codecs utf-8 and utf-16-le of Python as used through dtfabric and in dtformats/asl.py 216 (`Utf`, `Utf/Texts`) | induction over the text and, for the converse, over the bytes; substitution in the theorems of other properties |
| C190 Dates and times that are shown are those of the calendar, and no two stored times are shown alike | the formatters of times of data_format.py 89-137, 319-340 and 378-452 with the texts of dfdatetime (`Dates`) | uniqueness of the parts of a time, induction over days and over digits for the order |
| C191 The time of a log entry in the output of the unified logging script is its time of the calendar, cut to microseconds | GetDateTimeString of scripts/unified_logging.py 60-84 with the ISO 8601 text of dfdatetime (`Dates/Logs`) | lengths of the parts of the text, the digits of a fraction one by one, uniqueness of the parts of a time |
| C192 What debug output shows of logins and restore points are the texts and times that were stored | utmp.py 29-75 and 146-179 and rp_log.py 39-126 in debug mode, with the decoders of C189 and the times of C190 for their parameters (`Dates/Logins`) | composition with C181 and C184, induction over the entries |
| C193 Texts of scheduled tasks, printing requests and aliases come out whatever their characters are | job.py 175-216, cups_ipp.py 122-183 and alias_data.py with the decoders of C189 and one for UTF-16 with the most significant byte first (`Utf/More`) | composition with C173, C46 and C143, induction over texts and attributes |
| C194 Debug output of USN change journals | usn_journal.py 22-85 in debug mode, usn_journal.debug.yaml, scripts/usn_journal.py with --debug (`UsnDebug`) | loop that carries what is written, compared with the loop of C43 by induction; exact text of stored records |
| C195 Debug output of restore point change logs | rp_change_log.py 86-492 in debug mode, scripts/rp_change_log.py with --debug (`ChangeLogDebug`) | loops that carry what is written, by induction over entries and records; exact text of stored logs; comparison with the loops of C94 |
| C196 Debug output of Recycler INFO2 files | recycler.py 34-146 in debug mode, recycler.debug.yaml, codepage 1252, scripts/recycler.py with --debug (`RecyclerDebug`) | loop that carries what is written, compared with the loop of C100 by induction; exact text of stored entries; the codepage against a table of characters |
| C197 Debug output of Recycle.Bin metadata files | recycle_bin.py 41-132 in debug mode, recycle_bin.debug.yaml, scripts/recycle_bin.py with --debug (`RecycleBinDebug`) | model that carries what is written, compared with the model of C101; exact text of stored files against a separate report |
| C198 Debug output of fseventsd files | fseventsd.py 36-135 in debug mode, fseventsd.debug.yaml, scripts/fseventsd.py with --debug (`FseventsDebug`) | loops that carry what is written, equal to the loops of C45 by induction in what they return; exact text of stored pages against a separate report |
| C199 Debug output of gzip files | gzipfile.py 79-182 in debug mode, gzipfile.debug.yaml, scripts/gzipfile.py with --debug (`GzipDebug`) | model that carries what is written, equal to that of C47 in what it returns; exact text of stored members by induction |
| C200 Debug output of Firefox cache map files | firefox_cache1.py 53-118 in debug mode, firefox_cache1.debug.yaml, scripts/firefox_cache1.py with --debug for map files (`FirefoxDebug`) | model that carries what is written, equal to that of C105 in what it returns; exact text of stored maps by induction |
| C201 Debug output of Firefox cache block files | firefox_cache1.py 166-218 in debug mode, firefox_cache1.debug.yaml, scripts/firefox_cache1.py with --debug for block files (`FirefoxBlocks`) | model that carries what is written, equal to that of C105 in what it returns; exact text of stored items by induction |
| C202 Debug output of the data objects of systemd journals | systemd.py 116-191 in debug mode, systemd.debug.yaml for data objects (`SystemdDebug`) | model that carries what is written, equal to that of C93 in what it returns; exact text of stored objects |
| C203 Debug output of the entry arrays of systemd journals | systemd.py 99-116, 193-235 and 356-365 in debug mode, systemd.debug.yaml for entry arrays (`SystemdArrays`) | model that carries what is written, equal to that of C93 in what it returns; exact text of chains of arrays by induction |
| C204 Debug output of the entries of systemd journals | systemd.py 76-97, 237-279 and 367-374 in debug mode, systemd.debug.yaml for entries (`SystemdEntries`) | model that carries what is written, equal to that of C93 in what it returns; exact text of lists of entries with their data objects by induction |
| C205 Debug output of systemd journals | systemd.py 281-315 and 345-374 in debug mode, systemd.debug.yaml for the header, scripts/systemd.py with --debug (`SystemdFile`) | model that carries what is written, equal to that of C93 in what it returns; exact text from those of C202, C203 and C204 |
| C206 Debug output of timesync databases | unified_logging.py 2299-2397 in debug mode, aul_timesync.debug.yaml (`TimesyncDebug`) | model that carries what is written, equal to that of C74 in what it returns; exact text by induction over the records |
| C207 Debug output of uuidtext files | unified_logging.py 5124-5145, 5172-5208 and 5265-5284 in debug mode, aul_uuidtext.debug.yaml for the header (`UuidtextDebug`) | model that carries what is written, equal to that of C32 in what it returns; exact text by induction over the entries |

## Where a property is false of the code

Each of these has a theorem that proves the negation on a witness, and theorems for the part that holds.

* C02 (A data range never exposes bytes outside its window): False of the code for negative sizes (C02_negative_size_escapes); holds for absent or non-negative sizes.
* C05 (Open/Close is a two-state protocol): The handle part is false of the code: a parse that raises leaks its handle (C05_failed_open_leaks). The two-state protocol is proved, and the exact number of live handles.
* C11 (SuperFastHash matches the published algorithm): False of the code for keys of odd length whose last byte is 0x80 or more (C11_sign_extension_missing); equal to the unsigned-char variant for all keys and to the publication for all other keys.
* C12 (Cache addresses decode faithfully and without collision): The collision claim is false of the code (C12_collision, C12_reserved_bits_collide) and describing unknown types raises (C12_describe_unknown_type). Fields, rebuild and the largest collision-free part are proved.
* C13 (The allocation bitmap report lists every allocated block): False of the code when the last bit is set (C13_last_run_lost). The exact set of reported runs is proved for all bitmaps.
* C20 (Reading an archive of CPIO entries terminates): False of the code: a signed size field makes the loop go backwards for ever (C20_negative_size_loops). Termination is proved for the binary formats and for all archives without a minus sign in a size field.
* C24 (Spotlight variable size integers are decoded injectively): The injectivity half is false for encodings of six and seven bytes, whose spare bits are dropped (C24_spare_bits_dropped); proved for all other lengths. Sizes, values and the round trip are proved for all lengths.
* C26 (Reading ASL records terminates): False of the code: a record can be its own next record (C26_record_cycle_loops). Proved for files whose offsets increase or whose extra fields use no stored strings.
* C28 (printf width and precision keep their meaning): False of the code for operators with both width and precision (C28_integer_precision, C28_string_width, C28_float_width, C28_pointer, C28_zero_not_padded). Proved for a width only and for a precision only, integers in C84_*_partial. The text of floating-point numbers is not modelled, only the format specification.
* C30 (Caching of image values is transparent): False of the code: the key has only the identifier and the string reference (two refutations). Proved for histories in which lookups with the same key have the same result.
* C31 (Shared-cache string references resolve to the range containing them): False of the code at the end of a range, which is treated as part of it (C31_next_range_lost, C31_end_of_range_resolved); C31_first_range_partial gives the exact behaviour for all tables.
* C32 (uuidtext string references resolve to the entry containing them): False of the code at the end of an entry (C32_next_entry_lost); the layout and the exact behaviour are proved for all files.
* C36 (WMI object records are reassembled exactly): False of the code: a descriptor with a data offset of 8193 makes the segment read everything up to the end of the file (C36_too_large). Proved for descriptors within the page, and termination for all files.
* C37 (The WMI index traversal returns the keys of every reachable page): False of the code: an index with a cycle ends in a RecursionError (C37_cycle, C37_terminates_claim_false). Proved: pre-order for trees up to the recursion limit, and that the keys that are returned are exactly those of the reachable pages, for indexes of all shapes.
* C38 (The active WMI mapping file is the newest one): False of the code: the pattern is taken apart as if it were two values, a ValueError in all directories (C38_fails). The choice among the files is proved for all lists (C38_newest_partial).
* C39 (WMI file name globs match case-insensitively and only that name): False of the code: opening is a ValueError for all paths (C39_open_fails). That the pattern matches exactly the name up to case is proved.
* C42 (Reading a systemd journal terminates): False of the code: an entry array that points to itself is read again and again (C42_cycle). Proved for chains in which the offsets grow.
* C43 (USN change journal reading finds every record): False of the code: zero padding in a block is not skipped in the file and a record of 60 bytes at the end of a block is missed (C43_lost, C43_rejected). Proved for blocks that are full of records and for a single block; termination for all files.
* C44 (Restore point change log records are delimited by matching sizes): False of the code: a record with a size of 71 makes the rest of the file its data (C44_tiling_claim_false), and a truncated last entry is accepted (C44_truncated). Proved: the copy of the size, termination, and tiling for other sizes.
* C45 (fseventsd pages tile the decompressed stream): False of the code for a page whose size ends within a record: the next page begins after the record, not where the page ends (C45_tiling_claim_false). Proved for well-formed pages; termination for all files. The decompressed stream is the input.
* C47 (Gzip members are located and checked one after the other): False of the code: for a member of empty data the footer is searched where its stream begins (C47_empty). Proved for members of non-empty data whose stream fits the buffer; termination for all files. The decompressor is a parameter.
* C48 (Reading EMF and WMF records terminates): False of the code: a record of size 0 makes the reader loop for ever (C48_size_0_loops, C48_claim_false). Proved for files with record sizes that are not 0, with what is read.
* C49 (BSM audit records are accepted only if properly framed): False of the code: a record that is a header only is accepted (C49_framing_claim_false) and the size of a record does not say where the next one is (C49_tiling_claim_false). Termination is proved for all files; the framing for records longer than their header.
* C50 (Keychain tables keep schema and records): False of the code for signed integers below zero, columns with the same name and rows before the schema (C50_signed_claim_false, C50_names_claim_false, C50_order_claim_false). Proved for databases whose schema tables come first, wherever their parts are.
* C53 (Cache addresses give the documented size of a block range): False of the code for every block address: C53_size_one_block_short gives the exact value.
* C59 (Lists of integers in Spotlight attributes are read back): False of the code: the list starts with its own size and lacks its end (C59_list_starts_with_size, C59_list_shifted gives what is read).
* C60 (Every attribute of a Spotlight record is read): False of the code: attributes in the last four bytes of a record are lost (C60_last_attributes_lost). C60_record gives exactly which attributes are read, for all records. Values of types 0x09, 0x0A, 0x0B, 0x0C and 0x0F are a parameter.
* C61 (Spotlight streams maps give back the stored values): False of the code when the last value is at offset 0 (C61_value_at_offset_0_lost); proved otherwise.
* C62 (Walking the pages of a Spotlight store ends): False of the code: map pages of size 0 (C62_map_size_0_loops) and cyclic chains (C62_property_cycle_loops) are read for ever.
* C66 (Byte streams are displayed with non-printable bytes escaped): False of the code: the byte 0xff is shown as it is (C66_ff_not_escaped) and a backslash is not escaped (C66_backslash_ambiguous). Proved for streams without these.
* C67 (Displayed values line up in one column): False of the code for descriptions of 72 characters or more (C67_long_description); proved for all shorter ones.
* C68 (Lists of offsets show the offsets): False of the code: the tuple of texts is shown instead of the offset (C68_shows_tuple, C68_single). That no two lists have the same text is proved.
* C69 (Product versions of scheduled tasks are shown with major and minor version): False of the code: the minor version is taken from the wrong bits (C69_minor_wrong); C69_right_iff_partial gives exactly the values that are right.
* C70 (Times of aliases show the fraction of the second): False of the code: the numerator is shown as if it were a decimal fraction (C70_fraction_wrong).
* C71 (Displayed structures show each attribute and end with an empty line): False of the code: a text of several lines without a final line end gets no empty line after it (C71_no_empty_line). Order, texts and failures are proved for all structures, and the empty line for all other texts.
* C72 (IPv6 addresses in log messages have the form of RFC 4291): False of the code: a zero group is shown as nothing (C72_link_local_malformed); proved for addresses without zero groups.
* C74 (Timesync databases are read completely and the records of the boot are used): False of the code for a record whose size is 0: the loop does not end (C74_record_size_0_loops). Proved: termination if no record has size 0, that all records are returned, and that the records of the boot are used.
* C75 (A trace file reader keeps nothing from the file before): False of the code: if the boot identifier is not found, the sync records and the time base of the file before are used (C75_stale_records). Proved when the boot record is found.
* C76 (Strings and timesync directories are found relative to the trace file): False of the code: an archive without a dsc directory, relative paths and files near the root (three refutations). Proved for absolute paths of complete archives and of systems.
* C77 (A trace file reader can be closed and used again): False of the code: Close leaves the closed files in the cache (C77_closed_file_returned). Proved: the first Close closes every opened file once.
* C78 (Strings files stay open while they are among the most recently used): False of the code: looking up a missing file again evicts another one (C78_missing_file_evicts). Proved for histories without missing files.
* C79 (An absolute address is attributed to the image that contains it): False of the code at the end of an image: the comparison is <= (C79_next_image_lost). Proved for the other addresses.
* C81 (Log entries can be read again): False of the code: the second reading starts where the first one ended and finds nothing (C81_not_again).
* C83 (Every trace point of a firehose chunk makes a log entry): False of the code: a chunk of loss records only, or without records, ends with an UnboundLocalError because the private data is bound by the records before (C83_loss_only, C83_empty). Proved for chunks with at least one activity, log or signpost record.
* C84 (printf flags keep their meaning): False of the code: %-05d shows 5 as 50000, %+-5d fills with plus signs, %0+5d is a ValueError, %#o has a prefix 0o (four refutations). Proved for the other usual combinations of flags, all widths and all values.
* C87 (Mapping files of both versions are read as written): False of the code: a file of version 1 with one page more than entries is taken for version 2 (C87_version1_claim_false). Proved for version 2 and for all other files of version 1.
* C88 (The size of the property values covers every property): False of the code: two properties at the same offset (C88_covers_claim_false). Proved for properties that do not overlap.
* C90 (Namespaces are found at any depth): False of the code: there are five rounds only, and a namespace six levels below is found or not depending on the order (C90_order). Proved up to five levels, for all orders; soundness for all.
* C91 (The cells of a repository file are walked to the two root nodes): False of the code: a cell with a size that is zero but for its flags is read again and again (C91_terminates_claim_false). Proved for all other files, and that the right nodes are found.
* C92 (The super classes of a class are collected to the base class): False of the code: a cycle of super classes is never done with and a missing super class is an AttributeError (C92_terminates_claim_false, C92_missing). Proved for chains of any length.
* C94 (Every entry of a restore point change log is read with its records): False of the code: a record of a type other than 4, 5 and 9 reads another header after its own, so an empty last record is an error (C94_empty_claim_false). Proved for records with data.
* C95 (EMF and WMF records tell where their data is): False of the code: the size of the header of a record is used as the offset of its data (C95_data_claim_false) and the EMF header is taken to be 108 bytes (C95_header_claim_false).
* C96 (The whole of a BSM data token is read): False of the code: the number of elements is used as the size in bytes (C96_claim_false). Proved for elements of one byte.
* C97 (Both blocks of a time zone information file are read): False of the code: a zone without transitions, such as UTC, is an error (C97_first_claim_false), and the header of the 64-bit block is read at offset 0, so that its times are pairs of 32-bit times (C97_second_claim_false, C97_second_is_first). Proved for the 32-bit block of zones with transitions.
* C98 (Every cookie of a binary cookies file is read): False of the code: a file without pages is an error (C98_claim_false). Proved for files with pages.
* C99 (Every login record of a utmp or utmpx file is read and shown): False of the code: what is after the terminator of a string is shown as well (C99_string_claim_false) and the address is shown as the text of a tuple (C99_address_claim_false). The entries are proved to be read completely.
* C102 (The parts of a restore point log do not overlap): False of the code: a description that ends within the last 8 bytes gives a ValueError (C102_errors_claim_false) or has the footer in the data (C102_parts_claim_false). Proved for other files.
* C103 (The entries of a custom destinations file are those of the file): False of the code: the entries of a file that was read before remain (C103_fresh_claim_false) and all entries have the identifier 0x00000000 (C103_identifiers_claim_false). Proved for an object that has read nothing before; the LNK library is a parameter.
* C105 (All entries of Firefox cache files are read): False of the code: a block that is not in use can have sizes that make the reader skip the entries after it (C105_blocks_claim_false). Proved for unused blocks whose sizes are within the block; termination for all files.
* C106 (The heading of a file reference key has the MFT entry and sequence number): False of the code: sequence number 16 is shown as 1 (C106_claim_false) and MFT entry 65536 makes reading fail with a ValueError (C106_errors_claim_false). C106_exact_partial says exactly for which values the heading is right.
* C107 (All values of a Windows Defender DetectionHistory file are read): False of the code: tracking data of size 0 makes reading fail only with debug (C107_debug_claim_false), with an error that is not a parse error (C107_errors_claim_false). Proved for well-formed files; without debug all errors are parse errors (C107_errors_partial).
* C108 (The values of bookmark data are shown with what they stand for): False of the code: a record of another type than expected makes reading fail with an AttributeError (C108_errors_claim_false), empty flags with a ValueError. Proved for all other parts; C108_errors_partial bounds the errors. Decoding of UTF-8 is not modelled.
* C109 (A file mode in a log message is shown as kind and permissions): False of the code: set user id, set group id and the sticky bit are not shown (C109_special_claim_false). Kind and the nine permissions are proved for all values.
* C110 (A Windows security identifier in a log message is shown in its text form): False of the code for identifiers without sub authorities, whose text ends in a dash (C110_all_claim_false). Proved for all others.
* C111 (DNS headers, flags and counters in log messages): False of the code for flags none of which is set: there is an empty part between two commas (C111_flags_claim_false). Everything else is proved.
* C113 (A value of an unexpected size is shown as unsupported): False of the code: UUIDs, security identifiers and membership details fail (C113_total_claim_false, C113_failures). Proved for the DNS decoders; C113_uuid and C113_sid say exactly when the others fail. C114_size and C115_size have the remaining decoders.
* C114 (Codes in log messages are shown by their names): False of the code in two ways: two error codes are both shown as Reserved (C114_errors_claim_false), and the names of codes below zero are never shown (C114_negative_claim_false, C114_negative_unreachable). The rest is proved.
* C116 (References to format strings and program counters of log entries): False of the code in three ways: the load address of the documented example with a large offset (C116_load_claim_false), odd large shared cache data that are joined with bit 31 of the reference (C116_distinct_claim_false) and program counters below the start of the range (C116_negative_claim_false). The rest is proved.
* C117 (Tracepoint records are read as the documentation says): Activity and loss records are proved. False of the code: the oversize data reference of log and signpost records has one byte in the definitions and two in the documentation (C117_log_claim_false, C117_signpost_claim_false), and a record without data is a ValueError (C117_errors_claim_false).
* C118 (The values of data items are those stored with them): False of the code: a range before the private data is taken from its end (C118_private_claim_false), and a type that is not documented is a TypeError (C118_types_claim_false).
* C119 (Backtraces of log entries are read completely): False of the code for errors: an index of an identifier that is not there is an IndexError (C119_errors_claim_false), no data is a ValueError (C119_empty_claim_false).
* C120 (The values of trace records come out in their order): False of the code for errors: a record of four bytes is an IndexError (C120_errors_claim_false), and a size beyond the values is not refused (C120_sizes_claim_false).
* C122 (Processes, images and sub systems are found in the catalog): False of the code: offsets of strings are counted in characters, so a string after one that is not ASCII is not found (C122_strings_claim_false); an index that is too large is an IndexError (C122_processes_claim_false); the image of a process without a main image is an AttributeError (C122_image_claim_false).
* C123 (Oversize chunks of unified logging are read as stored): False of the code: the private data is taken from too late an offset, since the size of the data includes the items (C123_oversize_claim_false). Chunks without private data are proved.
* C124 (Simple and state dumps become log entries with what was stored): Simple dumps are proved. False of the code: state dumps with a property list or a protocol buffer lose their title (C124_title_claim_false), and names of decoders that are not UTF-8 are a UnicodeDecodeError (C124_errors_claim_false).
* C125 (The header of a tracev3 file is read as stored): False of the code for errors: a denominator of 0 is a ZeroDivisionError (C125_errors_claim_false).
* C126 (Scaling Mach times keeps their order and is exact): Doubles are modelled (Verif/Double.lean). Order is proved. Exactness is false of the code: with a timebase of 125/3 the time 195 is off by one (C126_exact_claim_false); below 2^51 ns the error is at most 1 ns (C126_exact_partial), and with a timebase of 1 times up to 2^53 are exact (C126_unit_partial).
* C128 (A trace point whose strings are not there does not stop the reading of the log): False of the code: a signpost with a name whose image is not in the catalog is an AttributeError (C128_name_claim_false), and so is a trace point without a catalog (C128_process_claim_false). Activities are proved, the others if their values can be read.
* C129 (Class definitions of the WMI repository come out as stored): False of the code: the size of the values is read with 27 bits instead of 31 (C129_class_claim_false), and an offset beyond the values is a ValueError (C129_errors_claim_false). Proved for values below 2^27 bytes and qualifiers of the types of C130; all errors are parse errors or value errors.
* C130 (Qualifiers of the WMI repository come out as stored): False of the code: 32-bit unsigned values are always missing (C130_uint32_missing), a reference makes the class unreadable (C130_reference_error). Proved for all other scalar types. Arrays are not read by the code. Names are lowered as in ASCII.
* C131 (Instances of the WMI repository come out as stored): False of the code: signed integers of 8, 16 and 64 bits and floating-point numbers make the whole instance unreadable with a ValueError (C131_unreadable), and data that ends early may be a ValueError (C131_errors_claim_false). Arrays of anything but texts are always missing (C131_array_missing). The other types are proved.
* C132 (References of object records tell where the data of the object is): Texts and data are proved. False of the code: the offset of a class definition is that of its end (C132_class_offset_claim_false), and the offset of an instance of version 2.2 is that of its size (C132_instance_offset_claim_false).
* C133 (Instances of version 1 of the WMI repository are read with their class): False of the code for derived classes: only the class itself is used, so the super classes are always missing (C133_super_missing, C133_instance_claim_false). Proved for classes that are not derived, whose properties have type qualifiers, names that differ and the types that C130 and C131 cover.
* C134 (All namespaces and instances of version 1 of the WMI repository are listed): Proved for trees with fewer levels than nested calls, of classes that are not derived. False of the code: no object has more than ten children (C134_ten), a tree that is below itself always ends in a RecursionError (C134_cycle), and a file without root node is a TypeError (C134_errors_claim_false). The instances before an error are not modelled.
* C135 (The instances of the class tree of version 1 of the WMI repository are listed): Order and completeness are proved for lists that end. False of the code: the reading of a list with a cycle never ends (C135_ends_claim_false). The class definitions themselves are not given by the code.
* C136 (All instances of a WMI repository with an index are listed with their values): Order, values, overriding of properties, derivation and that the cache cannot be seen are proved (C136_instances, C136_cache, C136_definitions). False of the code: an instance with several keys is listed for each of them (C136_once_claim_false), and a class definition of the same name in another namespace replaces one (C136_lookup_claim_false; C136_lookup_partial is about the last of them). The keys and the data of records are parameters here, proved about in C36, C37 and C89; instances before an error are not modelled.
* C137 (All namespaces of a WMI repository with an index are found): Proved for namespaces up to five levels below known ones and hashes without collisions, as C90, from the keys on. False of the code: a key with nothing below its namespace is an IndexError (C137_errors_claim_false). Deeper levels: C90_found_claim_false. An instance without a name is an error in the model even if its parent is not known.
* C138 (Property tables of a Spotlight store are read from their pages): Proved for all pages and chains (C138_page, C138_chain, C138_lookup, C138_missing, C138_terminates). That a malformed page is a parse error is false of the code (C138_errors_claim_false). Lists in pages of types or values are modelled without names.
* C139 (Property tables of a Spotlight store are read from streams map files): C139_table is proved for all tables. False of the code: a single value at offset 0 is lost (C139_files_claim_false, C139_files_partial excludes it) and an empty value is an IndexError (C139_errors_claim_false).
* C140 (Floating-point, string and reference values of Spotlight metadata are read): Round trips of all kinds of value are proved. False of the code: a malformed value is not always a parse error (C140_errors_claim_false), and kMDStoreAccumulatedSizes takes in the bytes of the next record (C140_record_claim_false). Floating-point values are kept as their bits; arrays have the number of whole elements.
* C141 (Record pages of a Spotlight store give their records): C141_page is proved for the three kinds of storage; zlib and LZ4 are parameters. False of the code: the unused part of a plain page is read as records, and no page of which the unused part is zero can be read (C141_unused_claim_false, C141_unused_fails); compressed pages without data are an IndexError (C141_errors_claim_false).
* C142 (Metadata items of a Spotlight store are found by their identifiers): C142_missing, C142_cache and C142_file are proved. That the item has all attributes is false of the code (C142_item_claim_false, as C60); C142_item says which it has and C142_item_partial when it has all. Dictionaries are lists of items set.
* C143 (Alias data of a Mac OS login item is read with all its values): Proved for both versions (C143_version2, C143_version3, C143_terminates, C143_errors, C143_size). False of the code: data of more than one record, which the documentation allows, is refused (C143_records_claim_false), and padding after the terminator is read as values (C143_terminator_claim_false). A structure group is read by the size of its base structure; text that is not within the value is not read.
* C144 (Characters in messages are shown as printf shows them): C144_character_partial is proved for values less than 256 without flags. False of the code: a negative character and a character aligned to the left raise an exception (C144_negative_fails, C144_left_fails, C144_character_claim_false), and a value of more than a byte shows another character (C144_wide). The character of a surrogate is not modelled.
* C145 (Signpost values are shown between their marks): Proved: names and marks (C145_name, C145_marks), times, signed and unsigned integers, text, telemetry strings and other sizes. False of the code: the end of a value cannot be told when the value has the end mark (C145_message_claim_false, C145_message_partial excludes it) and not every value gives a text (C145_total_claim_false). UTF-8 and the text of floating-point numbers are parameters.
* C147 (All log entries of a trace file are delivered in order): C147_all_partial is proved for files of which every firehose chunk has an activity, log or signpost. False of the code: a firehose chunk without one, such as one of losses or trace records only, ends the reading with UnboundLocalError (C147_all_claim_false). Also proved: the time entries (C147_times), termination on all bytes (C147_terminates), oversize values stay available (C147_oversize_kept, C147_oversize_found) and the last catalog is used (C147_last_catalog). UTF-8, LZ4, image strings, decoders and formatting are parameters.
* C149 (Log entries are shown in order of time): C149_order_partial: every entry is shown once and times never decrease; C149_distinct: with distinct times the order is determined. False of the code: entries with the same timestamp are not shown in the order of the file (C149_order_claim_false). The pure Python heapq is modelled; the one written in C does the same.
* C150 (The JSON of log entries can be read): C150_document_partial is proved for at least one entry with texts that the escapes of the script cover. False of the code: a control character in a message, a quote in a category or a backslash in the path of a sender gives a text that is not JSON (C150_control, C150_quote, C150_backslash, C150_document_claim_false), and a category can add members (C150_forged). Also false: with the heading that the script prints first its output is never JSON (C150_heading); no entries give one empty object (C150_no_entries); messages of 1085 to 1087 characters are marked as cut though they are whole (C150_cut). Also proved: no name twice (C150_names) and the parents that are shown (C150_parents). The ISO 8601 text of a time is a parameter.
* C151 (Damaged files are refused with a ParseError): Proved for fifteen readers (C151_utmp to C151_usn). For the others every possible exception is named: C151_bsm_partial (AttributeError too), C151_change_log_partial (ValueError), C151_ipp_partial (UnicodeDecodeError and those of the library), C151_gzip_partial (those of zlib), C151_cpio_partial (UnicodeDecodeError, OSError), C151_keychain_partial (ValueError, UnicodeDecodeError, TypeError), C151_leveldb_log_partial (ValueError, IndexError), C151_leveldb_descriptor_partial (IndexError, UnicodeDecodeError), C151_asl_partial (a file in memory). The claim is false of each of these, by a witness: C151_bsm_claim_false and the others. Not covered: seeks beyond what the operating system allows, which 64-bit offsets of journals and system logs can ask for; the formats whose errors are in C102, C107, C108 and C129 to C141.
* C152 (An archive is decoded as the objects in it): C152_value_partial and C152_archive_partial are proved for archives without sets and without members that are zero, false or empty. False of the code: a member that is zero, false or empty is lost (C152_archive_claim_false, C152_members says which are lost). A set is decoded as its last element and an empty set raises UnboundLocalError (C152_set). A plain dictionary without a class is not decoded. plistlib is not modelled.
* C153 (Data and identifiers of an archive can be read from their text): C153_data and C153_uuid are proved. False of the code: data and a text of the same characters give the same (C153_types_claim_false).
* C154 (Archives that cannot be decoded are refused): C154_class and C154_header are proved. False of the code: an array in itself is a RecursionError (C154_cycle, C154_errors_claim_false), as are archives without cycles beyond any limit (C154_deep). A reference beyond the end is an IndexError (C154_reference_partial), and a negative one is not refused (C154_reference_claim_false).
* C155 (What is printed for an archive is JSON): C155_script_partial is proved for the archives of C152_archive_partial and real numbers whose texts are JSON numbers; C155_unique says that the value is determined. False of the code: a value at the top that is not a reference is not decoded, so that data there stop the script (C155_script_claim_false). NaN is printed, which is not JSON (C155_nan). The keys 1 and "1" give a name twice (C155_names_claim_false). The json.encoder of Python is modelled; the texts of real numbers are a parameter.
* C156 (Every member of an archive gets a line with the hash of its contents): False of the code (C156_hashes_claim_false): the script ends normally only for an empty file and for one of no known type (C156_never), because Close raises for an archive that was not opened by its path; with two members of different paths nothing is hashed, because entries cannot be sorted (C156_two_members); without a trailer there is a parse error (C156_no_trailer). Proved: what is hashed is exactly the contents (C156_contents), and the line of an archive with one member is right (C156_one_member_partial). The hash and the decompression are parameters.
* C157 (Files that are opened are closed, and objects are opened one file at a time): C157_handles_claim is false of the code (C157_handles_claim_false): the file object of a file that cannot be read stays open. Proved for all sequences of calls: the state, with the exact number of file objects that stay open (C157_state); calls in the wrong state (C157_exclusive); Close after Open (C157_close); and that no file object stays open if all files can be read (C157_handles_partial). What a class reads and the file system are parameters.
* C158 (What is read from a file object does not depend on what the object was used for): False of the code (C158_history_claim_false). Proved: the result depends on exactly the size of the last file whose size was asked for (C158_size); an object that was never opened reads no entries (C158_never_opened), also for restore point change logs of any entries (C158_change_log); after a smaller file only the first entries are read, without an error (C158_smaller); and classes that do not use the size do not depend on the calls (C158_history_partial).
* C159 (Chrome cache index files, data block files and entries are read with what they hold): C159_keys_claim is false of the code (C159_keys_claim_false): the size of the key and the address of a long key are not used (C159_long_key), so that a key of more than 160 bytes is never read. Proved for all contents: the exact condition for index files and data block files with the kind of error (C159_index_accepted, C159_blocks, C159_file), and all values of index files (C159_index) and of entries whose key is in the entry (C159_entry).
* C160 (The entries of a Chrome cache directory are printed): False of the code (C160_directory_claim_false): no directory can be read (C160_never), as JoinPath is called with two arguments. With a JoinPath of two arguments only directories without an entry could be read (C160_no_entries), as the key is a string and has no decode. With both repaired the first 64 entries of a chain are printed in order (C160_chain_partial). The file system and dates are parameters.
* C161 (Debug definitions are accepted as documented, and all of them are used): Acceptance, order and the kind of error are proved for all documents (C161_definition, C161_file). C161_all_claim is false of the code (C161_all_claim_false): a second definition with the same name replaces the first, without an error. C161_formats_claim is false of the code (C161_formats_claim_false): the supported format hexadecimal has no method, and only that one (C161_formats_partial); the files of the project do not use it, and different formats have different methods (C161_used). An unknown custom format is not an error either (C161_custom). YAML is a parameter: documents have the types of the documentation.
* C162 (Debug mode does not change what can be read): False of the code (C162_debug_claim_false): no entry of the Chrome cache can be read in debug mode (C162_chrome), nor BSM tokens of five types (C162_bsm_types, C162_bsm_false), nor those with a net type that is not of an IP address. Proved for all BSM files: debug mode gives the same tokens or an error, which is raised for exactly the tokens that cannot be shown (C162_bsm), so that it changes nothing for all other records (C162_debug_partial); which these are is proved from what is stored (C162_tokens, C162_header, C162_records_partial). Of the header of a data block file no value is shown (C162_chrome_header).
* C163 (The jump list script shows every shortcut of a jump list): A jump list is shown exactly if the types of all properties that are reached are supported, else the script ends with a runtime error (C163_shown, C163_property), so that C163_shown_claim is false of the code (C163_shown_claim_false). Proved for all jump lists that are shown: the entries in order (C163_entries), the parts of a shortcut, with its items and data blocks in order (C163_parts, C163_item, C163_extensions, C163_block, C163_descriptions), the link information (C163_information), the lines of the data flags (C163_flags), the properties in order with their values (C163_store, C163_values), dates (C163_filetime, C163_fat, C163_filetime_injective), and that different file references are shown differently (C163_reference_injective). C163_reference_claim is false of one reference, entry 0 with sequence number 1 (C163_reference_claim_false, C163_reference_partial). C163_attributes_claim is false of all flags: they are shown with 0x800000000 added (C163_attributes, C163_attributes_claim_false). Command line arguments are not shown (C163_arguments). What is written before an error is not modelled; shortcuts, items and stores are as pylnk, pyfwsi and pyfwps read them.
* C164 (The values of the output writer are in one column): Proved for descriptions with tabs only at the start (C164_column_partial), as all of the project are, and for the recovery of descriptions without a colon that do not end with a tab (C164_injective; C164_tab shows the need). C164_column_claim is false of the method with a tab elsewhere (C164_column_claim_false).
* C165 (The LevelDB script shows every entry of a stored table): Proved: the entries of every stored table (as of C57) are shown in order (C165_table), those before an error are shown (C165_until_error), the line gives back key, sequence number and value (C165_line_recovers) and has no line breaks (C165_line_single). C165_line_injective_claim is false of types other than 0 and 1 (C165_line_injective_claim_false, C165_line_injective_partial). Of logs and descriptors only the heading is shown (C165_log, C165_descriptor). C165_every_log_claim is false of the empty log, as the script reads the last eight bytes of all files (C165_every_log_claim_false, C165_small). C165_image_claim is false: a file in an image is opened again outside of it (C165_image_claim_false, C165_image_partial).
* C166 (The Spotlight script shows the attributes of an item in two columns): Proved: rows of a table (C166_rows, C166_mismatch), their columns with least widths (C166_aligned), the rows of an item (C166_item, C166_values, C166_names) and the information on a store (C166_store, C166_version). False of the code: C166_missing_claim, the message is followed by an error (C166_missing); C166_every_item_claim, a list of texts cannot be shown (C166_list_of_strings); C166_null_claim, a text may be (null); C166_zone_claim, of the time zone only the minutes are shown (C166_date, C166_zone_partial); C166_apart_claim, a value of the width of its column is not separated from the next. Texts of values other than integers and texts, and of dates, are parameters.
* C167 (The keychain script shows the tables, columns and records of a keychain): Proved for all databases of C50: the output of both modes (C167_schema, C167_content), the fields of a line by its tabs (C167_fields), data types by their texts (C167_types), values below the names of their columns for all tables but those of the schema (C167_below_partial). False of the code: C167_below_claim, records of attributes are shown with five of six values (C167_attributes); C167_identifiers_claim, identifiers of four characters are not shown (C167_identifiers_partial); C167_null_claim, a text may be NULL (C167_null_partial). A column without name or identifier is an error (C167_no_name, C167_no_identifier). Names are ASCII, as they are read.
* C168 (The WMI repository script shows the instances of a repository): Proved for the output of an instance: C168_instance, C168_recovers; all instances in order (C168_instances), namespaces sorted (C168_namespaces). False of the code: C168_shown_claim, no repository can be opened at this commit (C168_nothing, by C39_open_fails); C168_relpath_claim, only a key called Name is shown (C168_relpath_partial); C168_namespace_claim, all instances are shown as in ROOT. A name that is no text is an error (C168_name). The mode for debugging is not modelled; texts of floats and lists are parameters.
* C169 (An AMCache file is read with all its keys, and shown with them in debug mode): Proved: without debug mode a file is read exactly if all values can be (C169_quiet); in debug mode all keys are shown in order with headings (C169_shown, C169_key, C169_headings, C169_file_heading, C169_roots), values after their descriptions (C169_file_value, C169_applications, C169_times), texts in a line each (C169_items). False of the code: C169_debug_claim, a key name that has four zeros in two places is an error in debug mode only (C169_debug_partial); C169_every_value_claim, an empty list is not shown (C169_every_value_partial), a single text where a list is expected is shown by its characters (C169_characters); C169_descriptions_claim, a value named like a description cannot be told from the value described (C169_descriptions_partial). What pyregf returns for keys and values, the texts of objects and of dates are parameters.
* C170 (The text output of the unified logging script shows every log entry in one line): Proved: entries with types are shown in order of time (C170_shown_partial, C170_types), the line gives back the fields (C170_fields, C170_recovers, C170_entries, C170_message), the name is what follows the last slash (C170_base_name), shared-cache strings are shown in full (C170_strings, C170_read_tables) and each block gives back its values (C170_uuid_block, C170_uuid_recovers, C170_range_block). False of the code: C170_shown_claim, an activity of another kind has no type, which is an error at that entry (C170_untyped); C170_damage_claim, nothing is shown of a damaged file (C170_damage); C170_one_line_claim and C170_forged_claim, a message with a line break may forge an entry (C170_one_line_partial, C170_forged_partial); C170_process_claim, a message may look like the name of a process (C170_process_partial); C170_sub_system_claim, it is not shown without category, as with dumps (C170_sub_system); C170_columns_claim, activityCreateEvent is wider than its column (C170_columns_partial). The text of dates is a parameter; which entries there are is C147.
* C171 (The analyzer shows the structures of a VHDX image by the members of their definition): Proved: what a structure is shown as does not depend on those before (C171_kept), a structure that is shown is shown by its members in order and no others (C171_shown), a structure is shown if its values are of the kinds of its members (C171_every_partial), and for all files the exact output up to the first structure that cannot be read (C171_vhdx, C171_short). False of the code: C171_every_claim, a member called checksum or offset that is no integer is an error; C171_members_claim, members of other kinds such as structures are not shown; C171_elements_claim, elements of sequences that are no structures are not shown; C171_log_claim, the definition lacks the two versions before the size of the log of [MS-VHDX] 2.2.2, so that other numbers are shown (C171_log, C171_log_partial). Which signatures dtFabric accepts and which texts it decodes are parameters.
* C172 (What is shown of the records of a metafile in debug mode is what is stored): Proved: the exact debug output of all stored files of both formats (C172_emf, C172_wmf, with C172_emf_header, C172_wmf_header, C172_placeable, C172_record for the lines), map modes, colors and objects (C172_map_mode, C172_color, C172_object, C172_stock), that reading in debug mode implies reading without (C172_reads), that there is one operation for each index (C172_indexes) and the decision of the script (C172_script, C172_quiet). False of the code: C172_data_claim, as many bytes of what follows are shown with the data of a record as precede it (C172_data, C172_data_own, C172_borrowed); C172_debug_claim, the last record may have too little data for its values (partial: C172_debug_partial); C172_stretch_claim, stretch modes have the names of map modes; C172_window_claim and C172_bitmap, x and y are swapped and not negative compared with [MS-WMF]; C172_restore_claim, a relative number is not negative; C172_raster_claim, 39 operations have the name of another (C172_raster_partial: exactly which); C172_kind_claim, the signature of Enhanced Metafiles in the data of a record of a Windows Metafile.
* C173 (The configuration of a job file is that stored): Proved: the configuration of all stored jobs whatever follows (C173_configuration), that every failure is a parse error (C173_errors) without any of the strings (C173_failed), that debug output changes nothing (C173_debug_same, C173_quiet) and its exact text (C173_debug), and what the script shows (C173_script, C173_script_debug, C173_script_error). False of the code: C173_failed_claim, the numbers of a file that could not be read are in the configuration; C173_members_claim, the number of triggers is never shown (partial: all others); C173_offset_claim, the offset of the application name is not used (partial: offset 70); C173_shown_claim, a line feed makes lines (partial: without). The parts of the product version are in C69.
* C174 (The files beside a trace file are those of its log, and an image is read by the requested back-end): Proved: both helpers name the same files (C174_helpers), names of identifiers (C174_name), the files (C174_dsc, C174_uuidtext, C174_timesync) and those of a log archive (C174_archive), that they are different (C174_distinct) and when there is one (C174_present); back-ends over all sequences of requests (C174_back_ends, C174_unknown) and kept whatever the outcome (C174_kept); when an image is opened (C174_single). False of the code: C174_sleuthkit_claim, TSK for Apple Partition Maps is the back-end for file systems (partial: all other formats); C174_message_claim, the script tells that there is no file system if there are several (partial: if and only if not one). dfVFS is a parameter, its JoinPath is taken to split segments and drop empty ones.
* C175 (Debug mode shows every structure, and every member of it): Proved for the tables of all .debug.yaml and .yaml files: no type errors but for one structure (C175_shown_partial), what is not named is never in the text (C175_unseen), other values have other texts for numbers, offsets, streams and arrays of numbers (C175_seen), the attributes without formatter (C175_formats). False of the code: C175_shown_claim, a branch node of the WMI repository always raises a TypeError in debug mode (C175_branch_node); C175_members_claim, 34 members of 17 structures are not named by any definition, mostly because of misspelled names (C175_members_partial, C175_hidden). Structures inside structures are not looked into, texts of other formatters are a parameter.
* C176 (Debug mode does not change what is read of a WMI repository): Proved for all data: without debug mode the readers are those of the other properties (C176_plain); in debug mode a mapping file gives the same or a ValueError (C176_mapping_partial), exactly when an unknown table has a page number of other than two digits (C176_mapping_tables); a page can only be read if it is not active or has no keys, values or sub pages of other than two digits (C176_index_partial, C176_index_keys), and of those only the first digit is written (C176_sub_pages); a repository file can only be read if it has no node cells (C176_cells_partial, C176_cells_raise). False of the code: C176_index_claim, C176_mapping_claim and C176_cells_claim, because the text of a number is unpacked into two variables.
* C177 (The attributes of a Spotlight database are shown as they were read): Proved for all data and types: an attribute that is read is shown unless it has a date and time for which the library gives no text (C177_shown_partial), which raises a ValueError (C177_time); the lines of a list (C177_list); the text determines integers, bytes and data (C177_seen); types that are not read are not shown (C177_unknown). False of the code: C177_shown_claim, because a floating-point value is formatted as a hexadecimal integer. Missing: that the text determines floating-point values and strings, which is left to Python's formatting.
* C178 (Cookies of a Safari cookies file are shown whenever they are read): Proved for all data: a file is shown in debug mode, with the same cookies, exactly if it is read and all its times are in the years 1 to 9999 (C178_shown_partial); which error is raised otherwise (C178_raises); the times that are written are those of the record by an independent calendar (C178_times); the text determines the time to the second (C178_seen). False of the code: C178_shown_claim, because a time that is infinite, not a number or outside of those years raises an error. The calendar functions of Python are modelled in Verif/Calendar.lean and proved to agree with a calendar that counts days.
* C179 (The index of a Chrome cache is shown whenever it is read): Proved for all data: an index is shown in debug mode, with the same table, exactly if it is read, was created before the year 10000 and all addresses are of file types 0 to 4 (C179_shown_partial); the errors otherwise (C179_late, C179_unknown), also for unsupported versions; the whole text, with the creation time by an independent calendar (C179_text); the lines of the table (C179_table); the text of an address determines it (C179_address). False of the code: C179_shown_claim, because later creation times raise an OverflowError and addresses of other file types a TypeError.
* C180 (The ranges of allocated blocks of a Chrome cache data block file are shown): Proved for all bitmaps: the ranges that are written are the maximal ranges that do not reach the last block (C180_ranges_partial), in order (C180_order); which blocks are in a range (C180_block); the bits are those of the file (C180_bit); lines determine ranges (C180_line); reading is the same in debug mode (C180_file). False of the code: C180_ranges_claim, because a range that reaches the last block is never written (C180_last).
* C181 (All login records of a utmp or utmpx file are shown in debug mode): Proved for all files: the text of an entry is that of its members in the order of the format (C181_entry, C181_xentry); the whole text of a file and what is raised (C181_file, C181_xfile, C181_xshort); the entries before one that cannot be decoded are shown (C181_stops). False of the code: C181_same_claim and C181_header_claim, because a string that is not UTF-8 raises UnicodeDecodeError in debug mode, for utmpx before the header is checked; C181_digits_claim, because the sign of a negative type is within its digits. C181_same_partial, C181_header_partial and C181_digits_partial have the conditions under which they hold. The decoder of UTF-8 and the texts of dfdatetime are parameters.
* C182 (The script shows the volume path and the entries of a restore point change log): False of the code: C182_shown_claim, as volume_path is None for every file and cannot be formatted. Proved for all files: the script writes its title and raises TypeError when the file can be read (C182_never), raises what reading raises otherwise (C182_refused), never succeeds (C182_fails) and ends (C182_ends). C182_shown_partial has what would be shown if the attribute were set. C182_name_claim is false: the last character of a process name is lost (C182_name_partial). C182_types_claim is false: bits 14, 15 and those from 22 have no name; C182_types_partial and C182_flags_partial hold for the others. Debug mode is in C195.
* C183 (The script shows the records of a USN journal): False of the code: C183_shown_claim, as a record has no method _FormatIntegerAsFiletime. Proved for all files: AttributeError is raised at the first record, after the names of the columns (C183_never); the script succeeds exactly when there is no record (C183_succeeds); what is raised otherwise (C183_refused); it ends (C183_ends). C183_columns_claim is false: there is no end of line between the texts. C183_shown_partial has what would be shown if a record had the method; C183_reference: the text of a reference tells the entry and the sequence number. Debug mode is in C194.
* C184 (A restore point log is shown only in debug mode, with all its values): Proved for all logs: the text in debug mode (C184_shown, C184_names), the errors are those of reading and do not depend on debug mode (C184_same, C184_errors). False of the code: C184_quiet_claim, as the data after the description is written in every mode when there is an output writer (the script has always one); C184_quiet_partial: exactly that is written, and nothing for a file that is refused. The decoder of UTF-16 and the texts of dfdatetime are parameters.
* C185 (All values of a time zone information file are shown in debug mode): Proved for all files: what is raised (C185_same), the text of a file that is read (C185_shown), the text of a file of version 1 with transitions from its values (C185_first), what is shown of a file that is refused by its header (C185_refused). False of the code: C185_second_claim, as the second block is looked for where the first is; C185_second_partial: the first block is shown, then the same header again.
* C187 (The scripts read a file with the reader of its kind): Proved of all Enhanced Metafiles, utmpx files, unified log files and Firefox names, on top of the round trips of C48 and C99. False of Windows Metafiles: one without placeable that has ' EMF' at offset 40 is refused with a ParseError (C187_disguised, C187_wmf_claim_false); C187_wmf_exact has the exact condition and C187_wmf_partial shows that those with a placeable are read. False of utmp files whose first record has the undocumented type 0x706d7475 (C187_utmp_claim_false); C187_utmp_partial has those of a documented type.
* C188 (The scripts report the values of Recycle.Bin files, cpio archives and Prefetch hashes): Proved for archives (C188_archive) and hashes (C188_hashes), on top of C21 and C09. For metadata files it is false of names with an end of line: the name can hold a line with another size, which a reader of lines finds first (C188_recycle_claim_false). Proved for names on one line (C188_recycle_partial); for all names two files with the same report are the same (C188_recycle_distinct), and the texts of two times differ (C188_times). What dfdatetime and the decoding of UTF-16 give are parameters.
* C191 (The time of a log entry in the output of the unified logging script is its time of the calendar, cut to microseconds): Proved: C191_time, C191_order, C191_document and C191_line. That timestamps are shown differently is refuted by C191_distinct_claim_false; C191_distinct_partial says exactly which are shown alike. That CopyToDateTimeStringISO8601 of dfdatetime writes date, T, time, nine digits and +00:00 is its documentation and is trusted.
* C192 (What debug output shows of logins and restore points are the texts and times that were stored): C192_utmp_partial and C192_utmpx_partial need texts without zero characters; with them the claim is refuted by C192_utmp_claim_false. C192_restore_point has no such restriction but that the description has no zero character, which would end it. The texts of dfdatetime are trusted, see C190; UTF-8 and UTF-16 are those of C189.
* C194 (Debug output of USN change journals): Proved: C194_same for all files, C194_full_blocks_partial and C194_one_block_partial for the text, C194_script for what the script does. False: C194_script_claim, as the script ends after the first record. Journals with padding in an earlier block are missing from the text, for which C43 is false.
* C195 (Debug output of restore point change logs): Proved: C195_shown_partial for the exact text of every log, C195_same for all files, C195_script for what the script does. False: C195_name_claim, as the last character of the name of a process is not shown. The first path (record type 3) is only shown as bytes, as the code does not decode it.
* C196 (Debug output of Recycler INFO2 files): Proved: C196_same_partial and C196_refused for all files, C196_codepage, C196_shown_partial for the exact text, C196_script. False: C196_same_claim, as bytes after the terminator of a name that stand for nothing in the codepage make reading fail in debug mode only; C196_name_claim, as the name is shown with what comes after its terminator; C196_header_claim, as the header is shown with the debug information of an entry and has none of its attributes.
* C198 (Debug output of fseventsd files): Proved: C198_same for all data, C198_shown_partial for the exact text of all pages, C198_lines_partial for paths without an end of line, C198_script. False: C198_path_claim, as after a path with an end of line no end of line is written and the identifier of the event comes right after it.
* C199 (Debug output of gzip files): Proved: C199_same for all files, C199_shown_partial for the exact text of the members of C47_members_partial, C199_script. False: C199_time_claim, as the modification time is read with a sign and times after 2038 are shown as times before 1970.
* C200 (Debug output of Firefox cache map files): Proved: C200_same for all files, C200_shown_partial for the exact text of all map files with the locations as numbers, C200_script. False: C200_location_claim, as the debug information asks for the format cache_lcation, which does not exist, and the locations are shown as plain numbers.
* C201 (Debug output of Firefox cache block files): Proved: C201_same for all files, C201_shown_partial for the exact text of entries and of blocks that are not in use and are no entries longer than a block, C201_script. False: C201_expiration_claim, as the debug information has no expiration time. A request with an end of line has none after it, and locations are plain numbers as in C200.
* C202 (Debug output of the data objects of systemd journals): Proved: C202_same for all files and offsets, C202_shown_partial for the exact text of stored objects. False: C202_size_claim, as the debug information has data_sizes where the structure has data_size. The entry arrays, the entries and the header of a journal are in C203, C204 and C205.

## Parts of the code that are not modelled

* `dfvfs_helpers.py` apart from joining paths, back-ends and the selection of a file system, `file_system.py` apart from
  joining and splitting paths and opening files: they are wrappers of libraries or of the operating system.
* The mode for debugging of the script `wmi_repository.py`, and the parsing of arguments by all scripts.
* The reading of shortcuts, shell items and property stores by pylnk, pyfwsi and pyfwps (C163 starts from what they return).
* Method definitions of the WMI repository (the code ignores them), and its unknown nodes 1 and 5 (read for debug output only).
* Floating-point values. Debug output is modelled in general (C65 - C72, C161, C162, C175) and as the exact text for AMCache files
  (C169), metafiles (C172), job files (C173), Spotlight attributes (C177), cookies (C178), the Chrome cache (C179, C180), logins
  (C99, C181), restore point logs (C184), time zones (C185), USN journals (C194), restore point change logs (C195), INFO2 files
  (C196), Recycle.Bin metadata files (C197), fseventsd files (C198), gzip files (C199), Firefox cache map files (C200) and block files (C201), systemd journals (C202 to C205),
  timesync databases (C206) and the header of uuidtext files (C207). The exact text for the other formats is not modelled.
