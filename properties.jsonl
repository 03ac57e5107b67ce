{"id": "C01", "title": "A data range behaves like an independent file holding exactly its window", "statement": "For every parent file, window (offset, size) and every finite sequence of seek/read/tell/get_size calls whose read sizes are absent or non-negative, the results and errors returned by the data range are exactly those of an in-memory file whose contents are the bytes of the parent from offset up to offset+size (cut at the end of the parent), regardless of where other users left the parent's position in between.", "quantifier": "all parents, windows, call sequences of any length, and parent positions between calls", "why_tests_cant": "A test fixes one parent and a handful of call sequences; the claim is over unbounded histories and interference through the shared parent position.", "anchors": ["dtformats/data_range.py:DataRange.read", "dtformats/data_range.py:DataRange.seek", "dtformats/data_range.py:DataRange.tell", "dtformats/data_range.py:DataRange.get_size"]}
{"id": "C02", "title": "A data range never exposes bytes outside its window", "statement": "Whatever size is passed to read (including negative sizes, which for Python files mean 'everything'), the bytes returned lie inside the window of the data range and the position never exceeds the window size as a result of a read.", "quantifier": "all parents, windows, positions and integer read sizes", "why_tests_cant": "The violation needs a particular combination of negative size and a parent longer than the window; sampling sizes does not establish containment.", "anchors": ["dtformats/data_range.py:DataRange.read"]}
{"id": "C03", "title": "A failing data range call has no effect on the position", "statement": "A seek that raises (unknown whence, negative resulting position) or a read that raises leaves the position seen by tell, and therefore all later reads, exactly as they were.", "quantifier": "all states, offsets and whence values", "why_tests_cant": "Error atomicity must hold from every reachable state, not only the few constructed in tests.", "anchors": ["dtformats/data_range.py:DataRange.seek", "dtformats/data_range.py:DataRange.read"]}
{"id": "C04", "title": "Chunked reading of a data range reassembles the window", "statement": "Reading from the start with any sequence of positive chunk sizes until an empty result is returned yields, concatenated, exactly the window contents; the loop always ends and an empty result occurs only at the end of the window.", "quantifier": "all windows and all sequences of positive chunk sizes", "why_tests_cant": "The number of chunkings is unbounded.", "anchors": ["dtformats/data_range.py:DataRange.read"]}
{"id": "C05", "title": "Open/Close is a two-state protocol", "statement": "For every sequence of Open and Close calls on a binary data file: Open succeeds only on a closed object, Close only on an opened object, a refused call changes nothing, and whenever the object is closed every file handle it opened has been closed.", "quantifier": "all call sequences, including those in which parsing raises part-way", "why_tests_cant": "Histories are unbounded and the interesting ones contain a failing parse followed by further calls.", "anchors": ["dtformats/data_format.py:BinaryDataFile.Open", "dtformats/data_format.py:BinaryDataFile.Close"]}
{"id": "C06", "title": "Reading data returns exactly the requested bytes or fails", "statement": "Reading data_size bytes at file_offset returns exactly the file's bytes [file_offset, file_offset+data_size) when they all exist and otherwise raises a parse error; a short result is never returned.", "quantifier": "all files, offsets and sizes", "why_tests_cant": "Boundary positions are unbounded.", "anchors": ["dtformats/data_format.py:BinaryDataFormat._ReadData"]}
{"id": "C07", "title": "Reading a structure uses one contiguous prefix of the file and terminates", "statement": "Reading a structure at an offset either raises a parse error or returns a structure that is the mapping of a contiguous run of the file's bytes that starts at that offset, together with the number of bytes taken; the growing read loop ends for every mapper and every file.", "quantifier": "all files, offsets, and all mapping behaviours (size hints may be arbitrary)", "why_tests_cant": "Variable-size structures drive a read loop whose iteration count depends on adversarial size hints.", "anchors": ["dtformats/data_format.py:BinaryDataFormat._ReadStructureFromFileObject", "dtformats/data_format.py:BinaryDataFormat._ReadStructureFromByteStream", "dtformats/data_format.py:BinaryDataFormat._ReadData"]}
{"id": "C08", "title": "A hexadecimal dump is lossless and column aligned", "statement": "In the hexadecimal dump of any data, every printed row has the same fixed column layout, the offsets printed are the true offsets of the rows, and the original bytes can be reconstructed from the dump: rows elided with '...' are exactly those equal to the row printed before them.", "quantifier": "all byte strings", "why_tests_cant": "Elision depends on repetition patterns of unbounded length.", "anchors": ["dtformats/data_format.py:BinaryDataFormat._FormatDataInHexadecimal"]}
{"id": "C09", "title": "The 2008 and Vista prefetch hashes agree", "statement": "For every path the prefetch hash computed with the Windows 2008 algorithm (eight bytes at a time) equals the one computed with the Vista algorithm (one byte at a time), and both equal the polynomial hash with multiplier 37 and start value 314159 modulo 2^32.", "quantifier": "all paths (byte strings of any length)", "why_tests_cant": "Equality of two different loops over all lengths and contents.", "anchors": ["dtformats/prefetch.py:CalculatePrefetchHashVista", "dtformats/prefetch.py:CalculatePrefetchHash2008", "dtformats/prefetch.py:CalculatePrefetchHashXP"]}
{"id": "C10", "title": "Prefetch hashes fit the eight hexadecimal digits used in file names", "statement": "Every prefetch hash is in the range 0..2^32-1, the XP hash moreover below 1000000007, so the %08X rendering always has exactly eight digits.", "quantifier": "all paths", "why_tests_cant": "The intermediate value passes through signed wrap-around and negation that sampling rarely hits.", "anchors": ["dtformats/prefetch.py:CalculatePrefetchHashXP", "dtformats/prefetch.py:CalculatePrefetchHashVista", "dtformats/prefetch.py:CalculatePrefetchHash2008"]}
{"id": "C11", "title": "SuperFastHash matches the published algorithm", "statement": "The Chrome cache hash of any key equals the published 32-bit SuperFastHash (with sign extension of the remaining odd byte as in C), and is always a 32-bit value.", "quantifier": "all keys of any length", "why_tests_cant": "Four tail cases combined with wrap-around at every step.", "anchors": ["dtformats/chrome_cache.py:SuperFastHash"]}
{"id": "C12", "title": "Cache addresses decode faithfully and without collision", "statement": "Decoding any 32-bit cache address is total, the initialised flag and file type are the documented bit fields, every separate-file address yields the file named after its 28-bit number, every block address yields file selector, block offset and block size from which the address can be rebuilt, and two different initialised addresses of known type never denote the same (file, block range).", "quantifier": "all 2^32 addresses", "why_tests_cant": "Exhaustive collision freedom over pairs of addresses.", "anchors": ["dtformats/chrome_cache.py:CacheAddress.__init__", "dtformats/chrome_cache.py:CacheAddress.GetDebugString"]}
{"id": "C13", "title": "The allocation bitmap report lists every allocated block", "statement": "The list of allocated ranges reported for a block file's allocation bitmap covers exactly the set bits of the bitmap, as maximal runs in increasing order.", "quantifier": "all bitmaps", "why_tests_cant": "Run-length logic at all word and end boundaries.", "anchors": ["dtformats/chrome_cache.py:DataBlockFile._DebugPrintAllocationBitmap"]}
{"id": "C14", "title": "LevelDB variable size integers round-trip", "statement": "Every non-negative integer encoded as a base-128 varint and followed by arbitrary data is decoded to itself and exactly its encoding is consumed; decoding never consumes more bytes than available; two canonical encodings never decode to the same value.", "quantifier": "all integers and all following bytes", "why_tests_cant": "Unbounded integers and arbitrary trailing context.", "anchors": ["dtformats/leveldb.py:LevelDBDatabaseFile._ReadVariableSizeInteger"]}
{"id": "C15", "title": "LevelDB log records survive fragmentation", "statement": "For every list of records laid out by the LevelDB log writer rules (fragmented over 32 KiB pages, padded page tails), reading the file returns exactly these records in order.", "quantifier": "all record lists of any sizes", "why_tests_cant": "Fragment boundaries interact with page boundaries for arbitrary record lengths.", "anchors": ["dtformats/leveldb.py:LevelDBDatabaseLogFile._ReadBlock", "dtformats/leveldb.py:LevelDBDatabaseLogFile._ReadRecord", "dtformats/leveldb.py:LevelDBDatabaseLogFile.ReadFileObject"]}
{"id": "C16", "title": "Reading a LevelDB log ends and never splits a block over a page", "statement": "For every file contents the log reader terminates after at most one step per seven bytes, and no block it reads begins in the last six bytes of a page.", "quantifier": "all file contents", "why_tests_cant": "Adversarial contents; termination cannot be observed by finite tests.", "anchors": ["dtformats/leveldb.py:LevelDBDatabaseLogFile.ReadFileObject", "dtformats/leveldb.py:LevelDBDatabaseLogFile._ReadRecord"]}
{"id": "C17", "title": "LevelDB table entries survive prefix compression", "statement": "For every sorted or unsorted list of key/value pairs written with LevelDB prefix compression and any restart layout, reading the block back yields the same keys and values in order.", "quantifier": "all key/value lists and all choices of shared prefix lengths", "why_tests_cant": "Each key depends on the whole history of previous keys.", "anchors": ["dtformats/leveldb.py:LevelDBDatabaseTableFile._ReadTable"]}
{"id": "C18", "title": "Sequence number and value type are recovered exactly", "statement": "For every table entry the 64-bit key suffix is split into sequence number and value type such that suffix = sequence*256 + type, with type < 256 and sequence < 2^56; the user key is the stored key without these last eight bytes.", "quantifier": "all suffixes and keys", "why_tests_cant": "All 2^64 suffix values.", "anchors": ["dtformats/leveldb.py:LevelDBDatabaseTableFile._ReadTable"]}
{"id": "C19", "title": "IndexedDB key prefixes round-trip", "statement": "For every database, object store and index identifier whose little-endian encodings fit the announced lengths, decoding the encoded key prefix yields the same three identifiers, and the key segments an entry is given are lossless: two keys with the same announced lengths and the same segments are the same key.", "quantifier": "all identifiers (8, 8 and 4 byte) and any trailing key bytes", "why_tests_cant": "Product of three ranges with variable lengths.", "anchors": ["dtformats/indexeddb.py:IndexedDBDatabaseTableFile._ReadKeyPrefix"]}
{"id": "C20", "title": "Reading an archive of CPIO entries terminates", "statement": "For every file contents, reading the entries of a CPIO archive terminates with a result or a parse error.", "quantifier": "all file contents", "why_tests_cant": "Non-termination is not observable by tests; sizes are attacker-controlled text.", "anchors": ["dtformats/cpio.py:CPIOArchiveFile._ReadFileEntries", "dtformats/cpio.py:CPIOArchiveFile._ReadFileEntry"]}
{"id": "C21", "title": "CPIO archives round-trip in all formats", "statement": "For each of the binary (both byte orders), portable ASCII (odc), new ASCII (newc) and CRC formats, and every list of entries with representable header values, the archive written by the format rules followed by a trailer is read back as the same entries in order, with data offsets and sizes that delimit exactly the original file data.", "quantifier": "all entry lists, header values, names and data of representable size", "why_tests_cant": "Padding depends on absolute offsets accumulated over all preceding entries.", "anchors": ["dtformats/cpio.py:CPIOArchiveFile._ReadFileEntry", "dtformats/cpio.py:CPIOArchiveFile._ReadFileEntries", "dtformats/cpio.py:CPIOArchiveFile.ReadFileObject"]}
{"id": "C22", "title": "CPIO lookup by path", "statement": "After opening an archive, a path exists iff some entry before the trailer has that path; lookup returns the first such entry in archive order; listing returns each path once, in the order of first occurrence.", "quantifier": "all archives, including duplicate paths", "why_tests_cant": "Duplicates in arbitrary positions.", "anchors": ["dtformats/cpio.py:CPIOArchiveFile.FileEntryExistsByPath", "dtformats/cpio.py:CPIOArchiveFile.GetFileEntries", "dtformats/cpio.py:CPIOArchiveFile.GetFileEntryByPath"]}
{"id": "C23", "title": "CPIO members are read in isolation", "statement": "Interleaving reads of any number of members of one archive (each a data range over the shared file) gives each member exactly its own data, independent of the interleaving.", "quantifier": "all archives and all interleavings of member reads", "why_tests_cant": "Schedules over a shared file position.", "anchors": ["dtformats/cpio.py:CPIOArchiveFileEntry", "dtformats/data_range.py:DataRange.read"]}
{"id": "C24", "title": "Spotlight variable size integers are decoded injectively", "statement": "Every encoded Spotlight variable size integer consumes exactly one plus the number of leading one bits bytes, and two encodings of the same length that differ decode to different values.", "quantifier": "all encodings", "why_tests_cant": "All nine lengths and 64-bit values.", "anchors": ["dtformats/spotlight_storedb.py:SpotlightStoreDatabaseFile._ReadVariableSizeInteger"]}
{"id": "C25", "title": "ASL inline strings round-trip", "statement": "Every ASCII string of at most seven bytes stored inline in the eight-byte string reference is returned unchanged; reference zero means no string; no inline string causes a file access.", "quantifier": "all inline strings and all 64-bit references", "why_tests_cant": "All 2^64 references.", "anchors": ["dtformats/asl.py:AppleSystemLogFile._ReadRecordString"]}
{"id": "C26", "title": "Reading ASL records terminates", "statement": "For every file contents following the record chain terminates.", "quantifier": "all file contents", "why_tests_cant": "Pointer chains chosen by the file.", "anchors": ["dtformats/asl.py:AppleSystemLogFile.ReadFileObject", "dtformats/asl.py:AppleSystemLogFile._ReadRecord"]}
{"id": "C27", "title": "Format strings keep their literal text", "statement": "A format string without operators is rendered as itself with '%%' as '%'; with operators, the literal text between operators is rendered unchanged (braces included), values are substituted in order, missing values are rendered as a marker, and surplus values are ignored.", "quantifier": "all format strings and all value lists", "why_tests_cant": "Escaping has to be right for every arrangement of braces, percent signs and operators.", "anchors": ["dtformats/unified_logging.py:StringFormatter.ParseFormatString", "dtformats/unified_logging.py:StringFormatter.FormatString"]}
{"id": "C28", "title": "printf width and precision keep their meaning", "statement": "For every operator with width and precision the Python format string derived from it applies the same width and the same precision.", "quantifier": "all widths and precisions", "why_tests_cant": "Interaction of two independent number fields.", "anchors": ["dtformats/unified_logging.py:FormatStringOperator.GetPythonFormatString"]}
{"id": "C29", "title": "File caches are bounded, LRU, and close what they evict", "statement": "For every history of lookups, the number of cached files never exceeds the maximum, a lookup returns the file belonging to the requested identifier, the entry evicted is the least recently used, every evicted file is closed exactly once and no cached file has been closed.", "quantifier": "all lookup histories", "why_tests_cant": "Unbounded histories over an eviction policy.", "anchors": ["dtformats/unified_logging.py:TraceV3File._GetDSCFile", "dtformats/unified_logging.py:TraceV3File._GetUUIDTextFile"]}
{"id": "C30", "title": "Caching of image values is transparent", "statement": "For every history of image value lookups each lookup returns what an uncached computation would return.", "quantifier": "all histories of lookups", "why_tests_cant": "Needs two particular lookups colliding on a key.", "anchors": ["dtformats/unified_logging.py:TraceV3File._GetImageValues"]}
{"id": "C31", "title": "Shared-cache string references resolve to the range containing them", "statement": "A string reference is resolved through the range whose half-open interval contains it, and to nothing if no range contains it.", "quantifier": "all range tables and references", "why_tests_cant": "Boundary references of adjacent ranges.", "anchors": ["dtformats/unified_logging.py:DSCFile.GetImageValues"]}
{"id": "C32", "title": "uuidtext string references resolve to the entry containing them", "statement": "A string reference is resolved inside the entry whose half-open interval contains it, at the file offset of that entry plus the relative offset; entries are laid out back to back after the header.", "quantifier": "all entry tables and references", "why_tests_cant": "Boundary references of adjacent entries.", "anchors": ["dtformats/unified_logging.py:UUIDTextFile.GetString", "dtformats/unified_logging.py:UUIDTextFile.ReadFileObject"]}
{"id": "C33", "title": "Trace identifiers identify the tracepoint", "statement": "The trace identifier of a tracepoint is a 64-bit value from which the format string reference, flags, log type and record type can be recovered; tracepoints differing in any of these have different identifiers.", "quantifier": "all field values", "why_tests_cant": "All 2^64 combinations.", "anchors": ["dtformats/unified_logging.py:TraceV3File._GetTraceIdentifier"]}
{"id": "C34", "title": "Timestamps use the latest applicable time synchronisation", "statement": "For every boot and every continuous time the timesync record used is one with the largest kernel time not exceeding the continuous time, if any such record exists.", "quantifier": "all record lists and times", "why_tests_cant": "Sorting and selection over arbitrary lists.", "anchors": ["dtformats/unified_logging.py:TraceV3File._GetTimesyncRecord", "dtformats/unified_logging.py:TraceV3File._ReadTimesyncRecords"]}
{"id": "C35", "title": "Reading tracev3 chunks terminates and stays aligned", "statement": "For every file contents the chunk loop terminates, every chunk header read starts at a multiple of eight, and successive chunks do not overlap.", "quantifier": "all file contents", "why_tests_cant": "Chunk sizes are chosen by the file.", "anchors": ["dtformats/unified_logging.py:TraceV3File.ReadLogEntries", "dtformats/unified_logging.py:TraceV3File._ReadChunkSet"]}
{"id": "C36", "title": "WMI object records are reassembled exactly", "statement": "Reading an object record spread over any number of consecutive pages returns exactly its declared number of bytes, namely the concatenation of the page segments.", "quantifier": "all page layouts and sizes", "why_tests_cant": "Unbounded number of pages.", "anchors": ["dtformats/wmi_repository.py:CIMRepository._GetObjectRecord", "dtformats/wmi_repository.py:ObjectsDataFile.ReadObjectRecordDataSegment"]}
{"id": "C37", "title": "The WMI index traversal returns the keys of every reachable page", "statement": "Enumerating the index yields exactly the keys of the pages reachable from the root, in pre-order, for every tree-shaped index; and it terminates for every index contents.", "quantifier": "all index trees of any depth", "why_tests_cant": "Depth and shape are unbounded; cyclic page references are attacker-controlled.", "anchors": ["dtformats/wmi_repository.py:CIMRepository._GetKeysFromIndexPage"]}
{"id": "C38", "title": "The active WMI mapping file is the newest one", "statement": "Among the mapping files found the active one has the largest sequence number, ties going to the first listed.", "quantifier": "all lists of mapping files", "why_tests_cant": "All orders and tie patterns.", "anchors": ["dtformats/wmi_repository.py:CIMRepository._GetActiveMappingFile"]}
{"id": "C39", "title": "WMI file name globs match case-insensitively and only that name", "statement": "The glob built from a file name matches exactly the names equal to it up to ASCII case, and the repository can be opened through it.", "quantifier": "all file names over the characters used", "why_tests_cant": "All case combinations.", "anchors": ["dtformats/wmi_repository.py:CIMRepository._FormatFilenameAsGlob", "dtformats/wmi_repository.py:CIMRepository.Open"]}
{"id": "C40", "title": "Derived WMI classes override inherited properties", "statement": "The value map of a class contains, for every property name occurring in its inheritance chain (compared case-insensitively), the definition from the most derived class that gives it a type.", "quantifier": "all inheritance chains", "why_tests_cant": "Chains of any length with arbitrary overriding.", "anchors": ["dtformats/wmi_repository.py:ClassValueDataMap.Build"]}
{"id": "C41", "title": "Firefox cache locations partition the 32-bit value", "statement": "The displayed fields of a cache location occupy disjoint bits that together cover the 32-bit value, so that the location can be rebuilt from them.", "quantifier": "all 2^32 locations", "why_tests_cant": "Exhaustive domain.", "anchors": ["dtformats/firefox_cache1.py:CacheMapFile._FormatCacheLocation"]}
{"id": "C42", "title": "Reading a systemd journal terminates", "statement": "For every file contents following the entry array chain terminates.", "quantifier": "all file contents", "why_tests_cant": "Pointer cycles.", "anchors": ["dtformats/systemd.py:SystemdJournalFile.ReadFileObject"]}
{"id": "C43", "title": "USN change journal reading finds every record", "statement": "For every journal made of blocks that contain records followed by zero padding, all records are returned in order.", "quantifier": "all journals", "why_tests_cant": "Positions of padding relative to block boundaries.", "anchors": ["dtformats/usn_journal.py:USNRecords.ReadRecords"]}
{"id": "C44", "title": "Restore point change log records are delimited by matching sizes", "statement": "A change log record is accepted only if its trailing size copy equals its leading size; records are tiled without gap or overlap; reading terminates for every file.", "quantifier": "all file contents", "why_tests_cant": "Sizes chosen by the file.", "anchors": ["dtformats/rp_change_log.py:RestorePointChangeLogFile._ReadChangeLogEntry", "dtformats/rp_change_log.py:RestorePointChangeLogFile._ReadChangeLogEntries"]}
{"id": "C45", "title": "fseventsd pages tile the decompressed stream", "statement": "Pages are read back to back from the decompressed stream, every record inside a page is read, and reading terminates for every file.", "quantifier": "all file contents", "why_tests_cant": "Page sizes chosen by the file.", "anchors": ["dtformats/fseventsd.py:FseventsFile.ReadFileObject"]}
{"id": "C46", "title": "IPP attributes are read up to the end tag", "statement": "All attribute groups and attributes of an IPP request before the end-of-attributes tag are read, in order, and reading terminates for every file.", "quantifier": "all file contents", "why_tests_cant": "Tag sequences of any length.", "anchors": ["dtformats/cups_ipp.py:CupsIppFile._ReadAttributesGroup", "dtformats/cups_ipp.py:CupsIppFile.ReadFileObject"]}
{"id": "C47", "title": "Gzip members are located and checked one after the other", "statement": "For every concatenation of gzip members the reader returns every member with its uncompressed data in order, and reading terminates for every file.", "quantifier": "all member lists", "why_tests_cant": "Member boundaries are found by the decompressor only.", "anchors": ["dtformats/gzipfile.py:GZipFile.ReadFileObject", "dtformats/gzipfile.py:GZipFile._ReadCompressedData"]}
{"id": "C48", "title": "Reading EMF and WMF records terminates", "statement": "For every file contents reading the records of an EMF or WMF file terminates.", "quantifier": "all file contents", "why_tests_cant": "Record sizes chosen by the file.", "anchors": ["dtformats/wemf.py:EMFFile.ReadFileObject", "dtformats/wemf.py:WMFFile.ReadFileObject"]}
{"id": "C49", "title": "BSM audit records are accepted only if properly framed", "statement": "A BSM record is accepted only if it starts with a header token, ends with a trailer token whose size equals the header's size; reading terminates for every file.", "quantifier": "all token sequences", "why_tests_cant": "Token sequences of any length.", "anchors": ["dtformats/bsm.py:BSMEventAuditingFile._ReadRecord", "dtformats/bsm.py:BSMEventAuditingFile.ReadFileObject"]}
{"id": "C50", "title": "Keychain tables keep schema and records", "statement": "Every record of a keychain table is read with the columns the schema declares, and negative integer attributes keep their value.", "quantifier": "all schemas and records", "why_tests_cant": "Offsets and signs over all values.", "anchors": ["dtformats/keychain.py:KeychainDatabaseFile._ReadRecord", "dtformats/keychain.py:KeychainDatabaseFile._ReadAttributeValueInteger"]}
{"id": "C51", "title": "Paths survive joining and splitting", "statement": "For every list of non-empty path segments without separators, splitting the joined path returns the list; joining the segments of an absolute path returns its normal form.", "quantifier": "all segment lists", "why_tests_cant": "Empty segments and repeated separators in any position.", "anchors": ["dtformats/file_system.py:NativeFileSystemHelper.JoinPath", "dtformats/file_system.py:NativeFileSystemHelper.SplitPath"]}
{"id": "C52", "title": "Network addresses are rendered unambiguously", "statement": "The textual IPv4 and IPv6 forms produced for addresses are defined exactly for 4 and 16 byte values, and different addresses never produce the same text.", "quantifier": "all addresses", "why_tests_cant": "2^128 addresses.", "anchors": ["dtformats/data_format.py:BinaryDataFormat._FormatArrayOfIntegersAsIPv4Address", "dtformats/data_format.py:BinaryDataFormat._FormatArrayOfIntegersAsIPv6Address", "dtformats/unified_logging.py:SocketAddressFormatStringDecoder"]}
{"id": "C53", "title": "Cache addresses give the documented size of a block range", "statement": "The byte size of the block range of a cache address is the documented one: the count field plus one, times the block size of the file type.", "quantifier": "all block addresses", "why_tests_cant": "Depends on all combinations of type and count; the value is only printed.", "anchors": ["dtformats/chrome_cache.py:CacheAddress.__init__"]}
{"id": "C54", "title": "The cache index table and entry chains are read completely and finitely", "statement": "Reading an index table yields exactly its complete non-zero 32-bit values, each under its own position and in order; following the chain of an entry visits the first 64 entries of the chain in order and stops, also when the chain is cyclic.", "quantifier": "all index table contents, all chains including cyclic ones", "why_tests_cant": "Unbounded tables and arbitrary links between entries.", "anchors": ["dtformats/chrome_cache.py:IndexFile._ReadIndexTable", "dtformats/chrome_cache.py:ChromeCacheParser.ParseDirectory"]}
{"id": "C55", "title": "LevelDB write batches survive reading", "statement": "For every list of put and delete operations encoded as a write batch, reading the record yields the same sequence number and the same operations in order; reading any record data ends.", "quantifier": "all operation lists, keys and values", "why_tests_cant": "Unbounded lists of operations with variable-size lengths.", "anchors": ["dtformats/leveldb.py:LevelDBDatabaseLogFile._ReadRecord", "dtformats/leveldb.py:LevelDBDatabaseLogFile._ReadRecordValueSlice"]}
{"id": "C56", "title": "LevelDB version edits survive reading", "statement": "For every list of descriptor values encoded as a version edit, reading consumes exactly the encoding and yields the same values in order; a tag outside the format is refused; reading any data ends.", "quantifier": "all value lists", "why_tests_cant": "Unbounded lists over nine tags with variable-size fields.", "anchors": ["dtformats/leveldb.py:LevelDBDatabaseDescriptorFile._ReadRecord"]}
{"id": "C57", "title": "A LevelDB table file yields the entries of all its data blocks in index order", "statement": "For every table file with a footer, an index block and data blocks stored anywhere and compressed with any of the supported methods, the entries delivered are the entries of the data blocks in index order.", "quantifier": "all block layouts, compressions and entry lists", "why_tests_cant": "Unbounded numbers of blocks at arbitrary offsets.", "anchors": ["dtformats/leveldb.py:LevelDBDatabaseTableFile.ReadTableEntries", "dtformats/leveldb.py:LevelDBDatabaseTableFile._ReadBlock", "dtformats/leveldb.py:LevelDBDatabaseTableFile._ReadIndexBlock"]}
{"id": "C58", "title": "LZ4 compressed Spotlight pages decompress to the concatenation of their blocks", "statement": "The data of an LZ4 compressed page is the concatenation, in order, of the contents of its blocks, compressed (with the block before as dictionary) or stored; bytes after the end marker have no effect; a page without an end marker is refused; decompressing ends for all data.", "quantifier": "all block sequences and all page data", "why_tests_cant": "Unbounded numbers of blocks of unbounded sizes.", "anchors": ["dtformats/spotlight_storedb.py:SpotlightStoreDatabaseFile._DecompressLZ4PageData", "dtformats/spotlight_storedb.py:SpotlightStoreDatabaseFile._DecompressLZ4Block"]}
{"id": "C59", "title": "Lists of integers in Spotlight attributes are read back", "statement": "An attribute that stores a list of variable size integers yields exactly the stored integers, in order.", "quantifier": "all lists and all encodings of their integers", "why_tests_cant": "Unbounded lists with integers of nine sizes.", "anchors": ["dtformats/spotlight_storedb.py:SpotlightStoreDatabaseFile._ReadMetadataAttributeVariableSizeIntegerValue"]}
{"id": "C60", "title": "Every attribute of a Spotlight record is read", "statement": "Reading a metadata item yields the identifiers of its record and every attribute stored in it; reading ends for all pages.", "quantifier": "all records, attributes, types and positions in a page", "why_tests_cant": "Unbounded numbers of attributes with variable-size encodings; depends on where the last attribute starts.", "anchors": ["dtformats/spotlight_storedb.py:SpotlightStoreDatabaseFile._ReadRecord", "dtformats/spotlight_storedb.py:SpotlightStoreDatabaseFile._ReadMetadataAttribute"]}
{"id": "C61", "title": "Spotlight streams maps give back the stored values", "statement": "For values stored one after the other with an offset for each, reading the offsets file and the data file yields exactly these values in order.", "quantifier": "all value lists, offsets and trailing data", "why_tests_cant": "Unbounded numbers of values of unbounded sizes, including empty ones.", "anchors": ["dtformats/spotlight_storedb.py:SpotlightStreamsMapOffsetsFile.ReadFileObject", "dtformats/spotlight_storedb.py:SpotlightStreamsMapDataFile.ReadFileObject"]}
{"id": "C62", "title": "Walking the pages of a Spotlight store ends", "statement": "Reading the map pages and the chains of property pages of a store ends for every file, reading each page of a chain once and in order.", "quantifier": "all files", "why_tests_cant": "Termination over all files, including ones with page sizes of zero and cyclic chains.", "anchors": ["dtformats/spotlight_storedb.py:SpotlightStoreDatabaseFile._ReadMapPages", "dtformats/spotlight_storedb.py:SpotlightStoreDatabaseFile._ReadPropertyPages"]}
{"id": "C63", "title": "Spotlight record descriptors lead back to their records", "statement": "Reading a record page yields one descriptor per record, in order; looking up the record of a descriptor yields the identifiers of that record; reading a page ends.", "quantifier": "all pages and all records", "why_tests_cant": "Unbounded numbers of records of variable size.", "anchors": ["dtformats/spotlight_storedb.py:SpotlightStoreDatabaseFile._ReadRecordPageValues", "dtformats/spotlight_storedb.py:SpotlightStoreDatabaseFile._GetMetadataItemByIdentifier"]}
{"id": "C64", "title": "Apple System Log records are all read with their strings", "statement": "Reading a log shows every record of the chain that starts at the first record, in order, each with its host name, sender, facility, message and extra fields; a repeated extra field name has the value of the last field.", "quantifier": "all files, records, references and extra fields", "why_tests_cant": "Unbounded chains of records with unbounded numbers of fields, in any place in the file.", "anchors": ["dtformats/asl.py:AppleSystemLogFile._ReadRecord", "dtformats/asl.py:AppleSystemLogFile._ReadRecordExtraField", "dtformats/asl.py:AppleSystemLogFile.ReadFileObject"]}
{"id": "C65", "title": "Lists of numbers and offsets are displayed unambiguously", "statement": "Two different lists of integers, or of offsets, are never displayed as the same text; an offset is displayed with the same number in decimal and in hexadecimal.", "quantifier": "all lists of integers of all lengths", "why_tests_cant": "Unbounded lists of unbounded integers.", "anchors": ["dtformats/data_format.py:BinaryDataFormat._FormatArrayOfIntegersAsDecimals", "dtformats/data_format.py:BinaryDataFormat._FormatArrayOfIntegersAsOffsets", "dtformats/data_format.py:BinaryDataFormat._FormatIntegerAsOffset"]}
{"id": "C66", "title": "Byte streams are displayed with non-printable bytes escaped", "statement": "Every byte outside the printable ASCII range is displayed as an escape, and two different byte streams are never displayed as the same text.", "quantifier": "all byte streams", "why_tests_cant": "Ranges over all byte sequences; ambiguity needs two particular streams.", "anchors": ["dtformats/data_format.py:BinaryDataFormat._FormatStreamAsString"]}
{"id": "C67", "title": "Displayed values line up in one column", "statement": "The colon after the description of a value is displayed in the same column for every description.", "quantifier": "all descriptions and values", "why_tests_cant": "Depends on the length of arbitrary descriptions.", "anchors": ["dtformats/data_format.py:BinaryDataFormat._FormatValue"]}
{"id": "C68", "title": "Lists of offsets show the offsets", "statement": "The display of a table of record or entry offsets shows, for each index, the offset at that index in hexadecimal.", "quantifier": "all lists of offsets", "why_tests_cant": "Ranges over all lists of offsets of all lengths.", "anchors": ["dtformats/keychain.py:KeychainDatabaseFile._FormatRecordOffsets", "dtformats/keychain.py:KeychainDatabaseFile._FormatTableOffsets", "dtformats/systemd.py:SystemdJournalFile._FormatEntryObjectOffsets"]}
{"id": "C69", "title": "Product versions of scheduled tasks are shown with major and minor version", "statement": "The product version of a scheduled task is displayed as the high byte of the value, a period and the low byte.", "quantifier": "all 16-bit values", "why_tests_cant": "All 65536 values.", "anchors": ["dtformats/job.py:WindowsTaskSchedulerJobFile._FormatIntegerAsProductVersion"]}
{"id": "C70", "title": "Times of aliases show the fraction of the second", "statement": "A time stored in units of 1/65536 second is displayed with the decimal fraction that it denotes.", "quantifier": "all values", "why_tests_cant": "Ranges over all 65536 fractions.", "anchors": ["dtformats/alias_data.py:MacOSLoginItemAliasData._FormatIntegerAsHFSTime64bit"]}
{"id": "C71", "title": "Displayed structures show each attribute and end with an empty line", "statement": "The display of a structure shows each attribute that is present, in order, with its description, and ends with an empty line.", "quantifier": "all structures and all texts of attributes", "why_tests_cant": "Unbounded numbers of attributes with arbitrary texts.", "anchors": ["dtformats/data_format.py:BinaryDataFormat._FormatStructureObject"]}
{"id": "C72", "title": "IPv6 addresses in log messages have the form of RFC 4291", "statement": "An IPv6 socket address in a log message is displayed as an IPv6 address in the textual form of RFC 4291.", "quantifier": "all socket addresses", "why_tests_cant": "Ranges over 2^128 addresses.", "anchors": ["dtformats/unified_logging.py:SocketAddressFormatStringDecoder.FormatValue"]}
{"id": "C73", "title": "Shared-cache strings files are read completely", "statement": "Reading a shared-cache strings file yields every range in order, with the offsets and size of its descriptor and the identifier, path and text range of the image its descriptor names, for both versions of the format.", "quantifier": "all files of both versions", "why_tests_cant": "Unbounded tables with two layouts.", "anchors": ["dtformats/unified_logging.py:DSCFile.ReadFileObject", "dtformats/unified_logging.py:DSCFile._ReadRangeDescriptors", "dtformats/unified_logging.py:DSCFile._ReadUUIDDescriptors"]}
{"id": "C74", "title": "Timesync databases are read completely and the records of the boot are used", "statement": "Reading a timesync database terminates and yields every record of the file in order; the timestamps of a trace file are computed from the boot record with the boot identifier of the trace file and from the sync records that follow it up to the next boot record.", "quantifier": "all timesync databases and boot identifiers", "why_tests_cant": "Unbounded sequences of records of sizes chosen by the file, over several files.", "anchors": ["dtformats/unified_logging.py:TimesyncDatabaseFile.ReadRecords", "dtformats/unified_logging.py:TraceV3File._ReadTimesyncRecords"]}
{"id": "C75", "title": "A trace file reader keeps nothing from the file before", "statement": "The timestamps of the log entries of a trace file do not depend on the files that were read with the same reader object before.", "quantifier": "all earlier states of the reader and all timesync databases", "why_tests_cant": "Needs two particular files read one after another with one object.", "anchors": ["dtformats/unified_logging.py:TraceV3File._ReadTimesyncRecords", "dtformats/unified_logging.py:TraceV3File._GetTimestamp"]}
{"id": "C76", "title": "Strings and timesync directories are found relative to the trace file", "statement": "Opening a trace file within a logarchive or within the diagnostics directory of a system finds the uuidtext and the timesync directory of that archive or system, for every path under which the file is opened.", "quantifier": "all paths and directory trees", "why_tests_cant": "Every combination of existing directories and of path depth.", "anchors": ["dtformats/unified_logging.py:TraceV3File.ReadFileObject"]}
{"id": "C77", "title": "A trace file reader can be closed and used again", "statement": "Closing a trace file closes every strings file that was opened, each once, and every lookup after the file was opened again returns a strings file that is open.", "quantifier": "all lookup histories", "why_tests_cant": "Needs a history of lookups, a close and another open.", "anchors": ["dtformats/unified_logging.py:TraceV3File.Close", "dtformats/unified_logging.py:TraceV3File._GetDSCFile"]}
{"id": "C78", "title": "Strings files stay open while they are among the most recently used", "statement": "After every history of lookups the cached strings files are exactly those of the identifiers used last, as many as the cache holds.", "quantifier": "all lookup histories and cache sizes", "why_tests_cant": "Unbounded histories over an eviction policy.", "anchors": ["dtformats/unified_logging.py:TraceV3File._GetDSCFile", "dtformats/unified_logging.py:TraceV3File._GetUUIDTextFile"]}
{"id": "C79", "title": "An absolute address is attributed to the image that contains it", "statement": "The strings file of a trace point is the one its flags say, and for an absolute address it is the one of the image of the process whose half-open address range contains the address.", "quantifier": "all flags, addresses and lists of images that do not overlap", "why_tests_cant": "Boundary addresses of adjacent images.", "anchors": ["dtformats/unified_logging.py:TraceV3File._GetImageValues"]}
{"id": "C80", "title": "Oversize data is found by process and reference", "statement": "A trace point that refers to oversize data gets the oversize data that was stored last under the same process and the same reference, and data of another process or with another reference is never returned.", "quantifier": "all sequences of oversize chunks and all references", "why_tests_cant": "A key made of several fields of unbounded size must be injective, over all histories.", "anchors": ["dtformats/unified_logging.py:TraceV3File._ReadChunkSet", "dtformats/unified_logging.py:TraceV3File._ReadFirehoseChunkData"]}
{"id": "C81", "title": "Log entries can be read again", "statement": "Reading the log entries of an open trace file a second time gives the same log entries as the first time.", "quantifier": "all trace files", "why_tests_cant": "Depends on the position the first reading left behind.", "anchors": ["dtformats/unified_logging.py:TraceV3File.ReadLogEntries"]}
{"id": "C82", "title": "All chunks of a trace file are delivered in order", "statement": "For a trace file that is made of chunks and padding, and for a chunk set made of such chunks, stored or compressed, each chunk is read once, in order, with its own tag and data.", "quantifier": "all lists of chunks with all data", "why_tests_cant": "Unbounded sequences of chunks with lengths chosen by the file.", "anchors": ["dtformats/unified_logging.py:TraceV3File.ReadLogEntries", "dtformats/unified_logging.py:TraceV3File._ReadChunkSet"]}
{"id": "C83", "title": "Every trace point of a firehose chunk makes a log entry", "statement": "For a firehose chunk that is made of trace points of supported kinds one log entry is made for each trace point, in order.", "quantifier": "all lists of trace points", "why_tests_cant": "Unbounded sequences of records, in every combination of kinds.", "anchors": ["dtformats/unified_logging.py:TraceV3File._ReadFirehoseChunkData"]}
{"id": "C84", "title": "printf flags keep their meaning", "statement": "An integer operator of a format string with flags shows every value the way printf shows it with these flags.", "quantifier": "all combinations of flags, widths and values", "why_tests_cant": "Combinations and orders of flags interact in the format language they are translated to.", "anchors": ["dtformats/unified_logging.py:FormatStringOperator.GetPythonFormatString"]}
{"id": "C85", "title": "Integer and string arguments are shown with the value that was logged", "statement": "An argument of 1, 2, 4 or 8 bytes is shown as the signed or unsigned number it stores, padded as the operator says, and values of another size are marked; a string argument is shown without the zero characters that follow it.", "quantifier": "all values of all four sizes, all widths, all strings", "why_tests_cant": "All 64-bit values and all widths.", "anchors": ["dtformats/unified_logging.py:SignedIntegerFormatStringDecoder.FormatValue", "dtformats/unified_logging.py:UnsignedIntegerFormatStringDecoder.FormatValue", "dtformats/unified_logging.py:StringFormatStringDecoder.FormatValue"]}
{"id": "C86", "title": "Index keys are the paths of their segments", "statement": "The keys of an index page of the WMI repository are the paths made of the values their segments refer to, wherever the segments and values are stored in the page; the segments can be had back by splitting a key if no value contains the separator; the sub pages are those that are set.", "quantifier": "all pages with any number of keys, segments and values", "why_tests_cant": "Unbounded numbers of keys and arbitrary placement of the data they refer to.", "anchors": ["dtformats/wmi_repository.py:IndexBinaryTreeFile._ReadPage", "dtformats/wmi_repository.py:IndexBinaryTreeFile._ReadPageKeyData", "dtformats/wmi_repository.py:IndexBinaryTreeFile._ReadPageValueData"]}
{"id": "C87", "title": "Mapping files of both versions are read as written", "statement": "Reading a mapping file of version 1 or 2 gives its version, its sequence number and the page numbers of its tables; the index is mapped by the second table if there is one and the objects by the first; other data after the first table of version 1 is ignored.", "quantifier": "all tables of any length, both versions", "why_tests_cant": "The version is guessed from fields that mean something else in the other version.", "anchors": ["dtformats/wmi_repository.py:MappingFile.ReadFileObject", "dtformats/wmi_repository.py:MappingFile._ReadDetermineFormatVersion"]}
{"id": "C88", "title": "The size of the property values covers every property", "statement": "The size computed for the values of an instance of a class is at least the end of every property of the class and its super classes.", "quantifier": "all inheritance chains and property layouts", "why_tests_cant": "All layouts, with equal offsets and overriding.", "anchors": ["dtformats/wmi_repository.py:ClassValueDataMap.Build"]}
{"id": "C89", "title": "The key of an object record tells where it is", "statement": "The data type, the hash, the page number, the record identifier and the size are read back from the key of an object record, different records have different keys, and segments of another form have no such values.", "quantifier": "all data types, hashes and numbers", "why_tests_cant": "All numbers of any length.", "anchors": ["dtformats/wmi_repository.py:CIMRepository._GetObjectRecordValuesFromKey"]}
{"id": "C90", "title": "Namespaces are found at any depth", "statement": "The namespaces that are listed are exactly those that are nested in the common namespaces, at any depth and in whatever order the sets of hashes are iterated over.", "quantifier": "all namespace trees and iteration orders", "why_tests_cant": "The iteration order of sets of strings changes from run to run.", "anchors": ["dtformats/wmi_repository.py:CIMRepository._ReadNamespacesFromObjectRecords"]}
{"id": "C91", "title": "The cells of a repository file are walked to the two root nodes", "statement": "Reading a repository file finds the node of the root namespace and the node of the system classes in the cells with the numbers the header tells, and ends for every file contents.", "quantifier": "all files with any number of bins and cells", "why_tests_cant": "Unbounded numbers of cells, with sizes chosen by the file.", "anchors": ["dtformats/wmi_repository.py:RepositoryFile.ReadFileObject"]}
{"id": "C92", "title": "The super classes of a class are collected to the base class", "statement": "The value map of a class is built from the class and all its super classes from the base class on; a missing super class is reported as a runtime error; the collection ends for every set of class definitions.", "quantifier": "all sets of class definitions", "why_tests_cant": "Chains of any length, and cycles chosen by the file.", "anchors": ["dtformats/wmi_repository.py:CIMRepository._GetClassValueMapByHash"]}
{"id": "C93", "title": "Every entry of a systemd journal is read with its data", "statement": "For every journal with any chain of entry arrays, all entries of all arrays are read, in the order of the chain, each with the data objects its items point to.", "quantifier": "all journals: chains and arrays of any length, objects anywhere in the file", "why_tests_cant": "Chains of any length, with offsets chosen by the file.", "anchors": ["dtformats/systemd.py:SystemdJournalFile.ReadFileObject", "dtformats/systemd.py:SystemdJournalFile._ReadEntryArrayObject", "dtformats/systemd.py:SystemdJournalFile._ReadEntryObject", "dtformats/systemd.py:SystemdJournalFile._ReadDataObject"]}
{"id": "C94", "title": "Every entry of a restore point change log is read with its records", "statement": "For every change log the entries are read in order, each with the types of its records; a record of any type may be empty.", "quantifier": "all change logs: any number of entries and records", "why_tests_cant": "Sequences of entries and records of any length.", "anchors": ["dtformats/rp_change_log.py:RestorePointChangeLogFile._ReadChangeLogEntries", "dtformats/rp_change_log.py:RestorePointChangeLogFile._ReadChangeLogEntry", "dtformats/rp_change_log.py:RestorePointChangeLogFile._ReadRecord"]}
{"id": "C95", "title": "EMF and WMF records tell where their data is", "statement": "For every EMF or WMF file the reader says where the data of each record is, the header being of any of the sizes the format has.", "quantifier": "all file contents, all header sizes", "why_tests_cant": "The offsets depend on the sizes in the file.", "anchors": ["dtformats/wemf.py:EMFFile._ReadRecord", "dtformats/wemf.py:EMFFile.ReadFileObject", "dtformats/wemf.py:WMFFile._ReadRecord"]}
{"id": "C96", "title": "The whole of a BSM data token is read", "statement": "A data token of a BSM audit record is read with all its elements, whatever their type.", "quantifier": "all element types and counts", "why_tests_cant": "Counts and element sizes chosen by the file.", "anchors": ["dtformats/bsm.py:BSMEventAuditingFile._ReadToken"]}
{"id": "C97", "title": "Both blocks of a time zone information file are read", "statement": "For every well-formed time zone information file the transition times, the types and the names are those that are stored, of the 32-bit block and, for versions 2 and 3, of the 64-bit block.", "quantifier": "all files with any number of transitions, types, names and leap seconds", "why_tests_cant": "Counts of any size, and a second block whose place depends on the first.", "anchors": ["dtformats/tzif.py:TimeZoneInformationFile._ReadTimeZoneInformation64bit", "dtformats/tzif.py:TimeZoneInformationFile._ReadFileHeader", "dtformats/tzif.py:TimeZoneInformationFile.ReadFileObject", "dtformats/tzif.py:TimeZoneInformationFile._ReadTransitionTimes32bit"]}
{"id": "C98", "title": "Every cookie of a binary cookies file is read", "statement": "For every well-formed binary cookies file all cookies of all pages are read with their strings, flags and times, wherever the records and strings are in their page.", "quantifier": "all files with any number of pages and cookies", "why_tests_cant": "Numbers of pages and cookies of any size, with offsets chosen by the file.", "anchors": ["dtformats/safari_cookies.py:BinaryCookiesFile._ReadFileHeader", "dtformats/safari_cookies.py:BinaryCookiesFile._ReadPage", "dtformats/safari_cookies.py:BinaryCookiesFile._ReadRecord"]}
{"id": "C99", "title": "Every login record of a utmp or utmpx file is read and shown", "statement": "All entries of a utmp or utmpx file are read in order with their values; a last entry that is cut off is an error; reading ends for every file; the strings are shown up to their terminator and the address as an address.", "quantifier": "all file contents and all entries", "why_tests_cant": "Files of any length and all bytes after a terminator.", "anchors": ["dtformats/utmp.py:LinuxLibc6UtmpFile._ReadEntries", "dtformats/utmp.py:LinuxLibc6UtmpFile._DebugPrintEntry", "dtformats/utmp.py:MacOSXUtmpxFile._ReadEntries"]}
{"id": "C100", "title": "Every entry of a Recycler INFO2 file is read", "statement": "All entries of an INFO2 file, of both sizes, are read in order with their values and names up to the terminator; a last entry that is cut off is an error; reading ends for every file.", "quantifier": "all file contents and all entries", "why_tests_cant": "Files of any length.", "anchors": ["dtformats/recycler.py:RecyclerInfo2File.ReadFileObject", "dtformats/recycler.py:RecyclerInfo2File._ReadFileEntry", "dtformats/recycler.py:RecyclerInfo2File._ReadFileHeader"]}
{"id": "C101", "title": "The attributes of a Recycle.Bin metadata file are those of the file", "statement": "After reading a metadata file of format 1 or 2 the version, the original size, the deletion time and the original file name are those that are stored; other versions are refused.", "quantifier": "all metadata files, names of any length", "why_tests_cant": "Names of any length and all values.", "anchors": ["dtformats/recycle_bin.py:RecycleBinMetadataFile.ReadFileObject", "dtformats/recycle_bin.py:RecycleBinMetadataFile._ReadOriginalFilename"]}
{"id": "C102", "title": "The parts of a restore point log do not overlap", "statement": "A restore point log is read as its header, the data and the creation time in its last 8 bytes, which do not overlap; a file that cannot be read so is a parse error.", "quantifier": "all file contents", "why_tests_cant": "The place of the end of the description is chosen by the file.", "anchors": ["dtformats/rp_log.py:RestorePointLogFile.ReadFileObject", "dtformats/rp_log.py:RestorePointLogFile._ReadFileFooter"]}
{"id": "C103", "title": "The entries of a custom destinations file are those of the file", "statement": "After opening a custom destinations jump list the entries that are returned are the LNK files of all its categories, in order, each with an identifier of its own; entries of a file read before are not among them; a category without its footer is refused.", "quantifier": "all files, numbers of categories and entries of any size, all behaviours of the LNK library, any history of files", "why_tests_cant": "The numbers of categories and entries are unbounded and the fault needs an object that is used twice.", "anchors": ["dtformats/jump_list.py:CustomDestinationsFile.ReadFileObject", "dtformats/jump_list.py:CustomDestinationsFile.GetJumpListEntries", "dtformats/jump_list.py:CustomDestinationsFile._ReadCategoryHeader"]}
{"id": "C104", "title": "All entries of a DestList stream are read", "statement": "Reading the DestList stream of an automatic destinations jump list ends for every stream; it reads every entry of formats 1 to 4 completely and in order, also if the number of entries in the header differs; an empty stream has no entries.", "quantifier": "all streams, all numbers of entries, paths of any length", "why_tests_cant": "Streams and paths of any length.", "anchors": ["dtformats/jump_list.py:AutomaticDestinationsFile._ReadDestList", "dtformats/jump_list.py:AutomaticDestinationsFile._ReadDestListEntry", "dtformats/jump_list.py:AutomaticDestinationsFile._ReadDestListHeader"]}
{"id": "C105", "title": "All entries of Firefox cache files are read", "statement": "Reading a Firefox cache map file gives all its records, and a file whose size or version differs is refused; reading a block file shows every entry in it, whatever is in the blocks that are not in use, and ends for every file.", "quantifier": "all map files and block files, any number of entries, any contents of the blocks that are not in use", "why_tests_cant": "The contents of the unused blocks are arbitrary and decide where the reader continues.", "anchors": ["dtformats/firefox_cache1.py:CacheMapFile.ReadFileObject", "dtformats/firefox_cache1.py:CacheBlockFile.ReadFileObject", "dtformats/firefox_cache1.py:CacheBlockFile._ReadCacheEntry"]}
{"id": "C106", "title": "The heading of a file reference key has the MFT entry and sequence number", "statement": "For every file reference key the heading has the MFT entry and the sequence number that the name of the key was made of (sequence number followed by the MFT entry in 12 hexadecimal digits), and a key never makes reading the file fail.", "quantifier": "all sequence numbers of 16 bits and all MFT entries of 48 bits", "why_tests_cant": "The name is taken apart at four zeros; only some of 2^64 values have more or fewer zeros at that place.", "anchors": ["dtformats/amcache.py:WindowsAMCacheFile._ReadFileReferenceKey"]}
{"id": "C107", "title": "All values of a Windows Defender DetectionHistory file are read", "statement": "Reading a detection history file ends for every file; it reads all values of any type in order, and shows each with the index of its set, with the tracking data decoded; a malformed file is reported as a parse error; whether debug information is asked for does not decide whether a file can be read.", "quantifier": "all files, any number of values and resources, tracking data of any size", "why_tests_cant": "Any number of values; the padding and the place of the tracking data depend on the values before it.", "anchors": ["dtformats/detection_history.py:WindowsDefenderScanDetectionHistoryFile.ReadFileObject", "dtformats/detection_history.py:WindowsDefenderScanDetectionHistoryFile._ReadValue", "dtformats/detection_history.py:WindowsDefenderScanDetectionHistoryFile._ReadThreatTrackingData", "dtformats/detection_history.py:WindowsDefenderScanDetectionHistoryFile._ReadThreatTrackingValue"]}
{"id": "C108", "title": "The values of bookmark data are shown with what they stand for", "statement": "Reading bookmark data shows, for every value of the table of contents, the date, the path of all components, the integers or the flags that its records have, wherever the records are in the data area; data of another size, another data area or with a further table is refused; malformed data is reported as a parse error.", "quantifier": "all bookmark data, any number of values and path components, all places of the records", "why_tests_cant": "Records refer to each other by offsets in any order, and any record type can be at the place of another.", "anchors": ["dtformats/bookmark_data.py:MacOSBackgroundItemBookmarkData.ReadFileObject", "dtformats/bookmark_data.py:MacOSBackgroundItemBookmarkData._ReadStringsArray", "dtformats/bookmark_data.py:MacOSBackgroundItemBookmarkData._ReadIntegersArray", "dtformats/bookmark_data.py:MacOSBackgroundItemBookmarkData._ReadDataRecord", "dtformats/bookmark_data.py:MacOSBackgroundItemBookmarkData._ReadTableOfContents"]}
{"id": "C109", "title": "A file mode in a log message is shown as kind and permissions", "statement": "A file mode is shown as ten characters: the kind of file, and for user, group and others whether reading, writing and executing are allowed; values of any size are accepted; two modes with the same text have the same mode bits.", "quantifier": "all values of all sizes", "why_tests_cant": "There are more modes than a test can list and the value can have any number of bytes.", "anchors": ["dtformats/unified_logging.py:FileModeFormatStringDecoder.FormatValue"]}
{"id": "C110", "title": "A Windows security identifier in a log message is shown in its text form", "statement": "A security identifier is shown as S, the revision, the 48-bit authority and all sub authorities in order, separated by dashes; different identifiers have different texts; a value that ends within its sub authorities is reported.", "quantifier": "all security identifiers, any number of sub authorities", "why_tests_cant": "The authority is stored in two parts with another byte order than the rest; the number of parts varies.", "anchors": ["dtformats/unified_logging.py:WindowsNTSecurityIdentifierFormatStringDecoder.FormatValue"]}
{"id": "C111", "title": "DNS headers, flags and counters in log messages", "statement": "A DNS header is shown with its identifier, flags and four counters; different headers have different texts; the flags are shown as direction, operation, the names of exactly the flags that are set, and response code, separated by commas.", "quantifier": "all DNS headers, all flags", "why_tests_cant": "There are 2^96 headers; injectivity is a statement about pairs.", "anchors": ["dtformats/unified_logging.py:BaseMDNSDNSStructureFormatStringDecoder._FormatFlags", "dtformats/unified_logging.py:MDNSDNSHeaderFormatStringDecoder.FormatValue", "dtformats/unified_logging.py:MDNSDNSCountersFormatStringDecoder.FormatValue", "dtformats/unified_logging.py:MDNSDNSIdentifierAndFlagsFormatStringDecoder.FormatValue"]}
{"id": "C112", "title": "UUIDs and Open Directory membership details in log messages", "statement": "A UUID is shown as five groups of upper case digits that give its bytes in order; membership details are shown as user or group, the name or the signed identifier, and the domain.", "quantifier": "all UUIDs, all names, identifiers and domains, all types", "why_tests_cant": "The values are unbounded strings and 128-bit numbers.", "anchors": ["dtformats/unified_logging.py:UUIDFormatStringDecoder.FormatValue", "dtformats/unified_logging.py:OpenDirectoryMembershipDetailsFormatStringDecoder.FormatValue"]}
{"id": "C113", "title": "A value of an unexpected size is shown as unsupported", "statement": "A value that has not the size its decoder expects is shown as unsupported, and does not make reading the log fail.", "quantifier": "all values of all sizes", "why_tests_cant": "A test has to think of the size for which a decoder fails.", "anchors": ["dtformats/unified_logging.py:UUIDFormatStringDecoder.FormatValue", "dtformats/unified_logging.py:WindowsNTSecurityIdentifierFormatStringDecoder.FormatValue", "dtformats/unified_logging.py:OpenDirectoryMembershipDetailsFormatStringDecoder.FormatValue", "dtformats/unified_logging.py:MDNSDNSHeaderFormatStringDecoder.FormatValue"]}
{"id": "C114", "title": "Codes in log messages are shown by their names", "statement": "An error code, SQLite result, authorization state, DNS protocol, reason or record type, Open Directory error or membership type is shown by its name, or as its number when it has none; every name of the tables can be shown; the text determines the code; a boolean is false only when all its bytes are zero.", "quantifier": "all 32-bit values, all names of the tables, booleans of any size", "why_tests_cant": "Injectivity is a statement about pairs of 2^32 values; that a name is never shown needs all values.", "anchors": ["dtformats/unified_logging.py:ErrorCodeFormatStringDecoder.FormatValue", "dtformats/unified_logging.py:ExtendedErrorCodeFormatStringDecoder.FormatValue", "dtformats/unified_logging.py:LocationSQLiteResultFormatStringDecoder.FormatValue", "dtformats/unified_logging.py:BooleanFormatStringDecoder.FormatValue", "dtformats/darwin.py:DARWIN_ERROR_CODES"]}
{"id": "C115", "title": "States of location services are shown completely", "statement": "The state of the location or client manager is shown with every known member under its own name; two states of the same size with the same text agree in every member; a value of another size is shown as unsupported.", "quantifier": "all values of all sizes", "why_tests_cant": "A member that is misspelled is left out silently, and only a value in which it differs shows it.", "anchors": ["dtformats/unified_logging.py:BaseLocationStructureFormatStringDecoder._FormatStructure", "dtformats/unified_logging.py:LocationLocationManagerStateFormatStringDecoder.FormatValue", "dtformats/unified_logging.py:LocationClientManagerStateFormatStringDecoder.FormatValue"]}
{"id": "C116", "title": "References to format strings and program counters of log entries", "statement": "A reference to a format string and a load address is made of the parts stored in the record as the documentation says, different parts give different references, and the program counter is the load address less than 2^48 plus the offset of its range.", "quantifier": "all tracepoint records with any flags and any values of the offsets", "why_tests_cant": "The parts are joined by shifts and alternatives; a collision needs two suitable records.", "anchors": ["dtformats/unified_logging.py:TraceV3File._CalculateFormatStringReference", "dtformats/unified_logging.py:TraceV3File._CalculateProgramCounter", "dtformats/unified_logging.py:TraceV3File._CalculateNameStringReference"]}
{"id": "C117", "title": "Tracepoint records are read as the documentation says", "statement": "Activity, log, signpost and loss records come out as they were stored: exactly the fields that the flags announce are there, with the data items after them; a record that cannot be read is reported as a parse error.", "quantifier": "all records of each kind, all combinations of flags, any number of data items", "why_tests_cant": "Each flag changes where all later fields are; there are far more combinations than a test can write down.", "anchors": ["dtformats/unified_logging.py:TraceV3File._ReadFirehoseTracepointActivityData", "dtformats/unified_logging.py:TraceV3File._ReadFirehoseTracepointLogData", "dtformats/unified_logging.py:TraceV3File._ReadFirehoseTracepointSignpostData", "dtformats/unified_logging.py:TraceV3File._ReadFirehoseTracepointLossData"]}
{"id": "C118", "title": "The values of data items are those stored with them", "statement": "A data item with a number has that number, one with a range has the bytes of the range, in the public or in the private values, and private values that are not there are shown as private; an item of a type that is not documented is shown as such.", "quantifier": "all data items, all public and private values, all positions of the private data", "why_tests_cant": "Ranges lie anywhere, also outside of the data.", "anchors": ["dtformats/unified_logging.py:TraceV3File._ReadDataItems", "dtformats/unified_logging.py:TraceV3File._ReadFirehoseChunkData"]}
{"id": "C119", "title": "Backtraces of log entries are read completely", "statement": "Every frame of a backtrace comes out with its offset and the identifier of its image, in order; a backtrace that cannot be read is reported as a parse error.", "quantifier": "all backtraces, any number of frames and identifiers", "why_tests_cant": "Identifiers, indexes and offsets are stored in three arrays of any size.", "anchors": ["dtformats/unified_logging.py:TraceV3File._ReadBacktraceData"]}
{"id": "C120", "title": "The values of trace records come out in their order", "statement": "The values of a trace record are stored back to front with their sizes at the end; they come out in order of the format string, each with its size; a record that cannot be read is reported as a parse error.", "quantifier": "all trace records, any number of values of any sizes", "why_tests_cant": "Read backwards from the end; every size changes where the others are.", "anchors": ["dtformats/unified_logging.py:TraceV3File._ReadFirehoseTracepointTraceData"]}
{"id": "C121", "title": "A catalog is read as it was stored", "statement": "The identifiers, strings and process entries of a catalog come out as they were stored, in order, whatever the entries are filled up with; a catalog that cannot be read is a parse error.", "quantifier": "all catalogs, any number of identifiers, strings, processes, images, sub systems and sub chunks", "why_tests_cant": "Every entry has two arrays of any size and starts where the one before it was filled up to.", "anchors": ["dtformats/unified_logging.py:TraceV3File._ReadCatalog"]}
{"id": "C122", "title": "Processes, images and sub systems are found in the catalog", "statement": "A process is found by its identifiers and has the images its indexes stand for; the category and sub system of an entry are the strings at the offsets of its sub system entry; a catalog with a process twice is a parse error.", "quantifier": "all catalogs, all processes, identifiers and offsets", "why_tests_cant": "The offsets are computed from the strings before; that different processes never share a key is about all pairs.", "anchors": ["dtformats/unified_logging.py:TraceV3File._BuildCatalogProcessInformationEntries", "dtformats/unified_logging.py:TraceV3File._GetCatalogSubSystemStringMap", "dtformats/unified_logging.py:TraceV3File._GetSubSystemStrings", "dtformats/unified_logging.py:TraceV3File._GetProcessImageValues"]}
{"id": "C123", "title": "Oversize chunks of unified logging are read as stored", "statement": "The items of an oversize chunk, its values and its private data come out as they were stored; a chunk that cannot be read is a parse error.", "quantifier": "all oversize chunks, any number of items, values and private data of any size", "why_tests_cant": "Where the private data starts depends on the sizes of everything before it.", "anchors": ["dtformats/unified_logging.py:TraceV3File._ReadOversizeChunkData"]}
{"id": "C124", "title": "Simple and state dumps become log entries with what was stored", "statement": "The entry of a simple dump or state dump has the message, the times, the process, the sub system and the type that were stored; a dump that cannot be read is a parse error.", "quantifier": "all simple dumps and state dumps, all texts", "why_tests_cant": "Texts have any length and fields of a fixed size may end anywhere.", "anchors": ["dtformats/unified_logging.py:TraceV3File._ReadSimpleDumpChunkData", "dtformats/unified_logging.py:TraceV3File._ReadStateDumpChunkData"]}
{"id": "C125", "title": "The header of a tracev3 file is read as stored", "statement": "The timebase, boot identifier and times of the header come out as they were stored, and a header that cannot be used is a parse error.", "quantifier": "all header chunks", "why_tests_cant": "The header has flags and sub chunks with fixed sizes, and any number for the denominator.", "anchors": ["dtformats/unified_logging.py:TraceV3File._ReadHeaderChunk"]}
{"id": "C126", "title": "Scaling Mach times keeps their order and is exact", "statement": "Later Mach times never become earlier timestamps, and the timestamp in nanoseconds is the Mach time times the timebase, rounded down.", "quantifier": "all Mach times and all timebases", "why_tests_cant": "It is about floating point rounding; whether a rounding error can be seen depends on each of 2^64 times and all pairs of numerator and denominator.", "anchors": ["dtformats/unified_logging.py:TraceV3File._GetTimestamp", "dtformats/unified_logging.py:TraceV3File._ReadHeaderChunk"]}
{"id": "C127", "title": "A log entry is made of what its trace point stores", "statement": "The entry of a trace point has its time relative to the chunk, its thread, event type, activity identifiers, process, category, sub system, signpost, loss and backtrace, and its message is the format string of its image with its values; the entries of a chunk come in the order of its trace points.", "quantifier": "all chunks with any number of trace points of all kinds, all processes, all values", "why_tests_cant": "An entry is put together from six structures selected by flags; the combinations are too many to try.", "anchors": ["dtformats/unified_logging.py:TraceV3File._ReadFirehoseChunkData", "dtformats/unified_logging.py:TraceV3File._GetDataItemsAndValuesData"]}
{"id": "C128", "title": "A trace point whose strings are not there does not stop the reading of the log", "statement": "A trace point whose image or process is not known makes an entry that says so, or is reported as a parse error.", "quantifier": "all trace points of all kinds, all catalogs", "why_tests_cant": "What is missing shows only with a catalog that does not have an image or a process.", "anchors": ["dtformats/unified_logging.py:TraceV3File._ReadFirehoseChunkData", "dtformats/unified_logging.py:TraceV3File._GetImageValues"]}
{"id": "C129", "title": "Class definitions of the WMI repository come out as stored", "statement": "A class definition read from its block has the name, the super class, the qualifiers and the properties (name, index, offset, type and qualifiers) that were stored, in order; a block that cannot be read is a parse error.", "quantifier": "all class definition blocks: any number of properties and qualifiers, any texts, any size of the values below 2^31", "why_tests_cant": "Names and definitions are found through offsets into data of any size; the size has a flag in its upper bits.", "anchors": ["dtformats/wmi_repository.py:ClassDefinition.ReadClassDefinitionBlock", "dtformats/wmi_repository.py:ClassDefinition._ReadClassDefinitionProperties", "dtformats/wmi_repository.py:ClassDefinition.IsAbstract", "dtformats/wmi_repository.yaml:class_definition_block"]}
{"id": "C130", "title": "Qualifiers of the WMI repository come out as stored", "statement": "The qualifiers of a class or property have the names, by text or by number, and the values of each of the documented types that were stored; of names that differ by case only the last one counts; reading them always ends.", "quantifier": "all lists of qualifiers of any length, all documented scalar types, all values", "why_tests_cant": "There are fourteen types with all their values, and descriptors follow each other with different sizes.", "anchors": ["dtformats/wmi_repository.py:ClassDefinition._ReadQualifiers", "dtformats/wmi_repository.py:ClassDefinition._ReadQualifierName", "dtformats/wmi_repository.yaml:qualifier_descriptor"]}
{"id": "C131", "title": "Instances of the WMI repository come out as stored", "statement": "An instance read with the properties of its class has the name of the class and the value of every property that were stored; an instance that cannot be read is a parse error.", "quantifier": "all instance blocks: any number of properties at any offsets, of all documented types, with and without dynamic properties", "why_tests_cant": "The layout depends on the class, and values are in two places joined by offsets.", "anchors": ["dtformats/wmi_repository.py:Instance.ReadInstanceBlockData", "dtformats/wmi_repository.yaml:instance_block"]}
{"id": "C132", "title": "References of object records tell where the data of the object is", "statement": "The record of a class definition or instance gives the name of the super class or the hash of the class, the data of the object, and the offset of that data in the record.", "quantifier": "all object records of all format versions, texts and data of any size", "why_tests_cant": "The offset matters in no test since only messages have it; it depends on the sizes of the fields.", "anchors": ["dtformats/wmi_repository.py:ClassDefinitionReference.ReadObjectRecord", "dtformats/wmi_repository.py:InstanceReference.ReadObjectRecord"]}
{"id": "C133", "title": "Instances of version 1 of the WMI repository are read with their class", "statement": "An instance found through the nodes of a repository file has the name of its class, the classes that it is derived from, and the value of every property that were stored.", "quantifier": "all repository files, class definitions with any number of properties and instances of them, at any offsets", "why_tests_cant": "Five nodes at any offsets and a layout made from the class definition take part in each instance.", "anchors": ["dtformats/wmi_repository.py:RepositoryFile._ReadInstance", "dtformats/wmi_repository.py:RepositoryFile._ReadClassDefinition", "dtformats/wmi_repository.py:RepositoryFile._ReadNodeCell"]}
{"id": "C134", "title": "All namespaces and instances of version 1 of the WMI repository are listed", "statement": "Every instance of the tree of a repository file is listed once, parents before their children and in order; namespaces have the names of all of their parents; a file that cannot be read is a parse error.", "quantifier": "all trees of any depth and any number of children", "why_tests_cant": "The trees are recursive and of any size, and nothing in a file keeps offsets from pointing back.", "anchors": ["dtformats/wmi_repository.py:RepositoryFile.ReadNamespaces", "dtformats/wmi_repository.py:RepositoryFile.ReadInstances", "dtformats/wmi_repository.py:RepositoryFile._ReadChildObjectsTree"]}
{"id": "C135", "title": "The instances of the class tree of version 1 of the WMI repository are listed", "statement": "The instances in the lists of all classes are given in order, those of a class before those of the classes below it, and the listing ends for every file.", "quantifier": "all class trees of any depth, lists of any length", "why_tests_cant": "Lists are linked by offsets and of any length.", "anchors": ["dtformats/wmi_repository.py:RepositoryFile.ReadClassDefinitions", "dtformats/wmi_repository.py:RepositoryFile._ReadChildObjectsList"]}
{"id": "C136", "title": "All instances of a WMI repository with an index are listed with their values", "statement": "GetInstances gives one instance for each record of an instance in the index, in the order of the keys, with the name of its class, the classes it is derived from and the value of every property of those, whatever was asked of the repository before; the class is the one of the namespace of the instance.", "quantifier": "all indexes with any number of keys, chains of super classes of any length, and any sequence of earlier lookups", "why_tests_cant": "The result depends on every earlier lookup by way of a cache, and on chains of classes of any length.", "anchors": ["dtformats/wmi_repository.py:CIMRepository.GetInstances", "dtformats/wmi_repository.py:CIMRepository._GetClassValueMapByHash", "dtformats/wmi_repository.py:CIMRepository._ReadClassDefinitionsFromObjectRecords"]}
{"id": "C137", "title": "All namespaces of a WMI repository with an index are found", "statement": "GetNamespaces gives every namespace that an instance in the index describes, with its full name, each instance once though it has several keys; an index that cannot be read is a parse error.", "quantifier": "all indexes, hierarchies of namespaces and orders in which sets are iterated over", "why_tests_cant": "The hierarchies are of any depth and the order of a set is not defined.", "anchors": ["dtformats/wmi_repository.py:CIMRepository.GetNamespaces", "dtformats/wmi_repository.py:CIMRepository._ReadNamespacesFromObjectRecords"]}
{"id": "C138", "title": "Property tables of a Spotlight store are read from their pages", "statement": "Each property page of a Spotlight store gives, under the index of every entry, the type or name or list of values stored for it, in all five kinds of table, and a chain of pages of any length gives the entries of all of them; an index that is stored more than once has its last entry.", "quantifier": "all pages with any number of entries of any size, chains of any length and any other data around them", "why_tests_cant": "The pages and their chains have no bound and the entries have variable size.", "anchors": ["dtformats/spotlight_storedb.py:SpotlightStoreDatabaseFile._ReadMetadataAttributePageValues", "dtformats/spotlight_storedb.py:SpotlightStoreDatabaseFile._ReadIndexPageValues", "dtformats/spotlight_storedb.py:SpotlightStoreDatabaseFile._ReadPropertyPages"]}
{"id": "C139", "title": "Property tables of a Spotlight store are read from streams map files", "statement": "When a Spotlight store keeps a table in streams map files, the value with each number in the offsets file is read from the data file at the offset given and stored under its number.", "quantifier": "all files with any number of values", "why_tests_cant": "The tables have no bound on the number or size of values.", "anchors": ["dtformats/spotlight_storedb.py:SpotlightStoreDatabaseFile._ReadStreamsMap", "dtformats/spotlight_storedb.py:SpotlightStoreDatabaseFile._ReadMetadataAttributeStreamsMap", "dtformats/spotlight_storedb.py:SpotlightStoreDatabaseFile._ReadIndexStreamsMap"]}
{"id": "C140", "title": "Floating-point, string and reference values of Spotlight metadata are read", "statement": "A floating-point attribute has the values stored, a string attribute has the text up to its mark, and a reference attribute has the name or names its table gives for its index; values are read from the data of their record only.", "quantifier": "all values, numbers of values and tables", "why_tests_cant": "The number of values and their lengths have no bound.", "anchors": ["dtformats/spotlight_storedb.py:SpotlightStoreDatabaseFile._ReadMetadataAttributeFloat64Value", "dtformats/spotlight_storedb.py:SpotlightStoreDatabaseFile._ReadMetadataAttributeStringValue", "dtformats/spotlight_storedb.py:SpotlightStoreDatabaseFile._ReadMetadataAttributeReferenceValue"]}
{"id": "C141", "title": "Record pages of a Spotlight store give their records", "statement": "The data of a record page is the data of its records, plain, compressed with zlib or in LZ4 blocks, wherever the page is; the part of a page that is not used is not read, and a malformed page is a parse error.", "quantifier": "all records, compressions, and sizes of the unused part", "why_tests_cant": "Pages have any number of records and any amount of unused space.", "anchors": ["dtformats/spotlight_storedb.py:SpotlightStoreDatabaseFile._ReadRecordPage", "dtformats/spotlight_storedb.py:SpotlightStoreDatabaseFile._ReadRecordPageValues"]}
{"id": "C142", "title": "Metadata items of a Spotlight store are found by their identifiers", "statement": "Opening a Spotlight store reads each table from the place the header gives; GetMetadataItemByIdentifier then gives the last record with the identifier with all its attributes, nothing for an unknown identifier, and the same result whatever was looked up before.", "quantifier": "all stores with any number of pages and records and all sequences of look-ups", "why_tests_cant": "Look-ups share a cache and stores have no bound on their size.", "anchors": ["dtformats/spotlight_storedb.py:SpotlightStoreDatabaseFile.GetMetadataItemByIdentifier", "dtformats/spotlight_storedb.py:SpotlightStoreDatabaseFile.ReadFileObject", "dtformats/spotlight_storedb.py:SpotlightStoreDatabaseFile._ReadRecord"]}
{"id": "C143", "title": "Alias data of a Mac OS login item is read with all its values", "statement": "Alias data of version 2 or 3 is read with the fields of its record and with every tagged value after it, in order and with the alignment between values skipped; reading ends for all data, what is accepted has the size its header gives, and data that is not alias data is a parse error.", "quantifier": "all records, numbers, kinds and sizes of values, and all malformed data", "why_tests_cant": "The number and sizes of the values have no bound.", "anchors": ["dtformats/alias_data.py:MacOSLoginItemAliasData.ReadFileObject", "dtformats/alias_data.py:MacOSLoginItemAliasData._ReadTaggedValue", "dtformats/alias_data.py:MacOSLoginItemAliasData._ReadRecordHeader"]}
{"id": "C144", "title": "Characters in messages are shown as printf shows them", "statement": "A %c operator of a unified logging format string shows the character of the value, padded to the width on the side the flags ask for, whatever the size of the stored value.", "quantifier": "all values of 1, 2, 4 or 8 bytes and all widths", "why_tests_cant": "The values range over 64 bits and the widths have no bound.", "anchors": ["dtformats/unified_logging.py:FormatStringOperator.GetPythonFormatString", "dtformats/unified_logging.py:UnsignedIntegerFormatStringDecoder.FormatValue"]}
{"id": "C145", "title": "Signpost values are shown between their marks", "statement": "A signpost attribute, time, number or string is shown between marks that name it, as printf shows the value; the name and the value can be read back from the text, every value gives a text, and in a message the value can be told from the text after it.", "quantifier": "all values, operators, kinds of signpost values and text around them", "why_tests_cant": "The values and the text of the message have no bound.", "anchors": ["dtformats/unified_logging.py:SignpostDescriptionAttributeFormatStringDecoder.FormatValue", "dtformats/unified_logging.py:SignpostDescriptionTimeFormatStringDecoder.FormatValue", "dtformats/unified_logging.py:SignpostTelemetryNumberFormatStringDecoder.FormatValue", "dtformats/unified_logging.py:SignpostTelemetryStringFormatStringDecoder.FormatValue"]}
{"id": "C146", "title": "Mask hashes are shown without loss", "statement": "A masked value is shown as the base64 of its hash between quotes: the hash can be read back, different hashes are shown differently, and the text after it does not matter.", "quantifier": "all hashes of any size and all text after them", "why_tests_cant": "Hashes and messages have no bound on their size.", "anchors": ["dtformats/unified_logging.py:MaskHashFormatStringDecoder.FormatValue"]}
{"id": "C147", "title": "All log entries of a trace file are delivered in order", "statement": "Reading the log entries of a unified logging trace file yields the entries of the boot and of the clock adjustments, and then one entry for every trace point, simple dump and state dump of every chunk set, in the order of the file, each made with the last catalog and the oversize values that precede it; the reading always ends.", "quantifier": "all trace files: all sequences of catalogs and chunk sets, stored or compressed, of all chunks", "why_tests_cant": "The number and the order of chunks have no bound, and what one chunk leaves behind decides how later chunks are read.", "anchors": ["dtformats/unified_logging.py:TraceV3File.ReadLogEntries", "dtformats/unified_logging.py:TraceV3File._ReadChunkSet", "dtformats/unified_logging.py:TraceV3File._ReadFirehoseChunkData", "dtformats/unified_logging.py:TraceV3File._ReadCatalog"]}
{"id": "C148", "title": "Log entries before damage are delivered", "statement": "When a trace file is damaged somewhere, the entries of everything before the damage, including those of the same chunk set, are delivered before the error.", "quantifier": "all trace files with a well-formed part followed by any data", "why_tests_cant": "What follows the well-formed part is any sequence of bytes.", "anchors": ["dtformats/unified_logging.py:TraceV3File.ReadLogEntries", "dtformats/unified_logging.py:TraceV3File._ReadChunkSet"]}
{"id": "C149", "title": "Log entries are shown in order of time", "statement": "The script that shows a trace file shows every log entry exactly once, ordered by timestamp, and entries with the same timestamp in the order of the file.", "quantifier": "all sequences of log entries with any timestamps", "why_tests_cant": "The heap has one shape for every order of pushes; the number of entries has no bound.", "anchors": ["scripts/unified_logging.py:LogEntriesHeap.PushLogEntry", "scripts/unified_logging.py:LogEntriesHeap.PopLogEntry", "scripts/unified_logging.py:LogEntriesHeap.PopLogEntries", "dtformats/unified_logging.py:LogEntry.__lt__"]}
{"id": "C150", "title": "The JSON of log entries can be read", "statement": "What the script writes for a trace file in JSON format is a JSON text: an array with one object for each log entry, in order, that has each attribute of the entry under its name with its value unchanged, and no name twice.", "quantifier": "all sequences of log entries, all event types, all texts of messages, names and paths, all backtraces", "why_tests_cant": "Texts have any length and any characters, and which members an object has depends on many attributes at once.", "anchors": ["scripts/unified_logging.py:Main", "scripts/unified_logging.py:GetDateTimeString"]}
{"id": "C151", "title": "Damaged files are refused with a ParseError", "statement": "Reading a file of one of the formats, whatever its bytes, ends without an exception or with a ParseError; a tool that catches ParseError is not stopped by a damaged file.", "quantifier": "all sequences of bytes as files of the formats utmp, utmpx, Recycler INFO2, $Recycle.Bin $I, binary cookies, Firefox cache, custom destinations, DestList, TZif, systemd journal, EMF, WMF, fsevents, USN journal, BSM, restore point change log, IPP, gzip, ASL, CPIO, keychain and LevelDB", "why_tests_cant": "A test gives one damaged file; the claim ranges over every file, and every way in which one can be damaged.", "anchors": ["dtformats/data_format.py:BinaryDataFile._ReadStructureFromFileObject", "dtformats/data_format.py:BinaryDataFile._ReadData", "dtformats/keychain.py:KeychainDatabaseFile.ReadFileObject", "dtformats/cpio.py:CPIOArchiveFile.ReadFileObject", "dtformats/leveldb.py:LevelDBDatabaseLogFile.ReadFileObject", "dtformats/bsm.py:BSMEventAuditingFile.ReadFileObject", "dtformats/rp_change_log.py:RestorePointChangeLogFile.ReadFileObject", "dtformats/asl.py:AppleSystemLogFile.ReadFileObject"]}
{"id": "C152", "title": "An archive is decoded as the objects in it", "statement": "For an archive of NSKeyedArchiver whose objects are of the classes the script knows, the result has each object at the top with its members, elements, keys and values, each reference replaced by what it refers to; the order and the sharing of objects in the table do not matter.", "quantifier": "all archives: all tables of objects, all ways to nest and share them, all values of members, both forms of references", "why_tests_cant": "Objects can be nested to any depth and tables have any size; a test has one archive.", "anchors": ["scripts/decode_nskeyedarchiver_plist.py:NSKeyedArchiverDecoder.DecodePlistFile", "scripts/decode_nskeyedarchiver_plist.py:NSKeyedArchiverDecoder._DecodeObject", "scripts/decode_nskeyedarchiver_plist.py:NSKeyedArchiverDecoder._DecodeComposite", "scripts/decode_nskeyedarchiver_plist.py:NSKeyedArchiverDecoder._DecodeNSSet"]}
{"id": "C153", "title": "Data and identifiers of an archive can be read from their text", "statement": "Data in an archive are shown as URL-safe base64 from which the bytes can be read, an identifier as a UUID with its bytes in order, and values of different types do not look the same.", "quantifier": "all byte sequences as data, all identifiers of 16 bytes, all pairs of values", "why_tests_cant": "The claim is for every byte sequence of every length.", "anchors": ["scripts/decode_nskeyedarchiver_plist.py:NSKeyedArchiverDecoder._DecodeObject", "scripts/decode_nskeyedarchiver_plist.py:NSKeyedArchiverDecoder._DecodeNSUUID"]}
{"id": "C154", "title": "Archives that cannot be decoded are refused", "statement": "Decoding ends for every property list, and what cannot be decoded is refused with a RuntimeError: other archivers or versions, classes without a method, references to objects that are not there, objects that have themselves as a part.", "quantifier": "all property lists, all limits on the depth of calls", "why_tests_cant": "It ranges over all property lists and all depths, and a cycle can have any length.", "anchors": ["scripts/decode_nskeyedarchiver_plist.py:NSKeyedArchiverDecoder.DecodePlistFile", "scripts/decode_nskeyedarchiver_plist.py:NSKeyedArchiverDecoder._DecodeObject", "scripts/decode_nskeyedarchiver_plist.py:NSKeyedArchiverDecoder._GetPlistUID"]}
{"id": "C155", "title": "What is printed for an archive is JSON", "statement": "What the script prints for an archive is a JSON text whose value is that of what the archive holds: objects with the names of members or keys and no name twice, arrays in order, texts character by character, numbers unchanged.", "quantifier": "all archives, all texts with any characters, all nesting depths", "why_tests_cant": "Texts have any characters, and nesting has any depth.", "anchors": ["scripts/decode_nskeyedarchiver_plist.py:Main", "scripts/decode_nskeyedarchiver_plist.py:NSKeyedArchiverDecoder.DecodePlistFile"]}
{"id": "C156", "title": "Every member of an archive gets a line with the hash of its contents", "statement": "For an archive, the hash script writes a line for every member with contents, with the path and the hash of exactly the bytes of the contents, and ends normally.", "quantifier": "all archives of all formats, any number of members, contents of any size", "why_tests_cant": "Contents are hashed in blocks, of any number; archives have any number of members and paths.", "anchors": ["scripts/cpio.py:CPIOArchiveFileHasher.HashFileEntries", "dtformats/cpio.py:CPIOArchiveFile.ReadFileObject", "dtformats/cpio.py:CPIOArchiveFileEntry", "dtformats/data_format.py:BinaryDataFile.Close"]}
{"id": "C157", "title": "Files that are opened are closed, and objects are opened one file at a time", "statement": "For every sequence of Open and Close calls: an object that is open cannot be opened and one that is not cannot be closed, and such calls change nothing; Close closes the file that was opened; and no file stays open once the object is not open.", "quantifier": "all sequences of calls of any length, all files and file systems, all that a class can read or refuse", "why_tests_cant": "The state of the object depends on the whole sequence of calls, of which there are infinitely many, including those that failed.", "anchors": ["dtformats/data_format.py:BinaryDataFile.Open", "dtformats/data_format.py:BinaryDataFile.Close", "dtformats/file_system.py:NativeFileSystemHelper.OpenFileByPath", "dtformats/dfvfs_helpers.py:DFVFSFileSystemHelper.OpenFileByPath"]}
{"id": "C158", "title": "What is read from a file object does not depend on what the object was used for", "statement": "Reading a file object gives what opening a file with the same contents gives, whatever the object was used for before.", "quantifier": "all sequences of calls of any length, all contents, all classes that read entries up to the size of the file", "why_tests_cant": "The result depends on the sizes of files that were opened before, in any sequence of calls.", "anchors": ["dtformats/data_format.py:BinaryDataFile.Open", "dtformats/data_format.py:BinaryDataFile.ReadFileObject", "dtformats/rp_change_log.py:RestorePointChangeLogFile.ReadFileObject"]}
{"id": "C159", "title": "Chrome cache index files, data block files and entries are read with what they hold", "statement": "An index file or data block file is read exactly if it has the size, the signature and version 2.0 or 2.1 of its header, and any other raises a parse error; the creation time and all the addresses of an index file, and the hash, addresses, creation time and key of an entry are read as stored.", "quantifier": "all file contents, all tables of any length, all entries and keys", "why_tests_cant": "Tables have any length and headers and entries any values.", "anchors": ["dtformats/chrome_cache.py:IndexFile.ReadFileObject", "dtformats/chrome_cache.py:DataBlockFile.ReadFileObject", "dtformats/chrome_cache.py:DataBlockFile.ReadCacheEntry", "dtformats/chrome_cache.py:ChromeCacheParser.ParseFile", "dtformats/chrome_cache.yaml:chrome_cache_entry"]}
{"id": "C160", "title": "The entries of a Chrome cache directory are printed", "statement": "For every directory with an index file and the data block files of its addresses, the entries of all chains are printed.", "quantifier": "all directories, all index and data block files, both file system helpers", "why_tests_cant": "It is about all directories; a test shows one, and there is none in the project.", "anchors": ["dtformats/chrome_cache.py:ChromeCacheParser.ParseDirectory", "dtformats/file_system.py:NativeFileSystemHelper.JoinPath", "dtformats/dfvfs_helpers.py:DFVFSFileSystemHelper.JoinPath"]}
{"id": "C161", "title": "Debug definitions are accepted as documented, and all of them are used", "statement": "A definition of a debug definitions file is accepted exactly if it has a data type map and attributes of distinct names, each with a description and a supported format or a custom one, and any other raises a parse error; the attributes of all definitions are shown, in order, each formatted as its format says.", "quantifier": "all debug definitions files of any number of definitions and attributes, all formats and custom formats", "why_tests_cant": "Files have any number of definitions and attributes of any names; the files of the project are only some.", "anchors": ["dtformats/yaml_definitions_file.py:YAMLDebugDefinitionsFile._ReadDefinition", "dtformats/yaml_definitions_file.py:YAMLDebugDefinitionsFile.ReadFromFile", "dtformats/data_format.py:BinaryDataFormat.ReadDebugInformationFile", "dtformats/data_format.py:BinaryDataFormat._DEBUG_FORMAT_CALLBACKS"]}
{"id": "C162", "title": "Debug mode does not change what can be read", "statement": "A file or an entry that can be read without debug mode can be read with it, with the same result, and the other way around.", "quantifier": "all BSM files of any number of records and tokens, all entries of the Chrome cache", "why_tests_cant": "It relates two runs on any file; whether a token can be shown depends on its type and values.", "anchors": ["dtformats/bsm.py:BSMEventAuditingFile._ReadToken", "dtformats/bsm.py:BSMEventAuditingFile._DEBUG_INFO_NAME", "dtformats/bsm.py:BSMEventAuditingFile._FormatIntegerAsNetType", "dtformats/chrome_cache.py:DataBlockFile.ReadCacheEntry", "dtformats/chrome_cache.py:DataBlockFile._DebugPrintCacheEntry"]}
{"id": "C163", "title": "The jump list script shows every shortcut of a jump list", "statement": "The script shows the number of entries and then all shortcuts in order, counted from 1: for each set data flag that is known its line, the times, the values of the link information, the shell items with their extension blocks, the data blocks, and every property of the property stores; a file reference is shown as its entry and sequence number.", "quantifier": "all jump lists: any number of shortcuts, shell items, extension blocks, data blocks and properties, of any types and values", "why_tests_cant": "Shortcuts nest lists of any length; whether one is shown depends on the type of every property in it.", "anchors": ["scripts/jump_list.py:StdoutWriter.WriteShortcut", "scripts/jump_list.py:StdoutWriter._WritePropertyStore", "scripts/jump_list.py:StdoutWriter._WriteShellItem", "scripts/jump_list.py:StdoutWriter._WriteShortcutDataFlags", "scripts/jump_list.py:StdoutWriter._WriteShellItemFileEntry", "scripts/jump_list.py:Main"]}
{"id": "C164", "title": "The values of the output writer are in one column", "statement": "In a line that is written for a description and a value, the colon is in column 72 unless the description is longer, and the description and value can be recovered from the line.", "quantifier": "all descriptions, with any indentation, and all values", "why_tests_cant": "Descriptions of any length and indentation; alignment depends on the length modulo the size of a tab.", "anchors": ["dtformats/output_writers.py:StdoutWriter.WriteValue"]}
{"id": "C165", "title": "The LevelDB script shows every entry of a stored table", "statement": "For every table file the script shows, in order, a line for each entry of its data blocks with key, sequence number, type and value; from a line the key, sequence number and value can be recovered; a log or descriptor file is read in full before the heading is shown; a file in an image is shown as a file outside would be.", "quantifier": "all files and paths: all tables, logs and descriptors of any number of blocks, records and entries, all keys and values of any bytes", "why_tests_cant": "Keys and values are arbitrary bytes of any length and a table has any number of entries; that no two entries have the same line is a statement about all pairs of them.", "anchors": ["scripts/leveldb.py:Main", "dtformats/leveldb.py:LevelDBDatabaseTableFile.ReadTableEntries", "dtformats/leveldb.py:LevelDBDatabaseLogFile", "dtformats/data_format.py:BinaryDataFile.Open"]}
{"id": "C166", "title": "The Spotlight script shows the attributes of an item in two columns", "statement": "With an item the script shows a row for each of the thirty attribute names, with the value of the attribute the item has under the name, or (null); the values are in one column; the message that there is no such item is all that is shown if there is none; without an item the metadata version, the number of items and the store properties are shown.", "quantifier": "all stores, identifiers and items with any attributes and values, and all tables of any number of rows and columns", "why_tests_cant": "Widths depend on all rows; the values are of any type and length.", "anchors": ["scripts/spotlight_storedb.py:Main", "scripts/spotlight_storedb.py:TableView.AddRow", "scripts/spotlight_storedb.py:TableView.Write", "scripts/spotlight_storedb.py:GetDateTimeString"]}
{"id": "C167", "title": "The keychain script shows the tables, columns and records of a keychain", "statement": "Without --content the script shows every table in order with its identifier and a line for each column with index, identifier, name and data type; with --content every table with the names of its columns and a line for each record with its values below the names of their columns. No value is told from a value.", "quantifier": "all keychain files, with any number of tables, columns and records, and any names and values", "why_tests_cant": "The number and kind of columns is read from the file itself; a value in the wrong column looks like any other value.", "anchors": ["scripts/keychain.py:Main", "dtformats/keychain.py:KeychainDatabaseFile.ReadFileObject"]}
{"id": "C168", "title": "The WMI repository script shows the instances of a repository", "statement": "For each instance the script shows the ten system properties and then its properties sorted by name, with all values in one column; the relative path identifies the instance within its class and the path has its namespace; namespaces are shown in order.", "quantifier": "all repositories, instances with any properties and values, and all modes of output", "why_tests_cant": "Names of any length set the column; order and identity are statements about all pairs of instances.", "anchors": ["scripts/wmi_repository.py:PrintInstance", "scripts/wmi_repository.py:PrintNamespace", "scripts/wmi_repository.py:Main", "dtformats/wmi_repository.py:CIMRepository.GetInstances", "dtformats/wmi_repository.py:CIMRepository.Open"]}
{"id": "C169", "title": "An AMCache file is read with all its keys, and shown with them in debug mode", "statement": "A file is read if and only if each value of its file, program, application and application file keys can be read, and reading does not depend on debug mode; in debug mode every key is shown in order with its kind and name, every value in one line after a description that tells which value it is, dates and times as such, and lists of texts one text per line.", "quantifier": "all hives with any root key, any number of volumes, keys and values, any names and data", "why_tests_cant": "A hive has any number of keys and values of any type; a key that is left out or a value with another description shows only in a file that has it.", "anchors": ["dtformats/amcache.py:WindowsAMCacheFile.ReadFileObject", "dtformats/amcache.py:WindowsAMCacheFile._ReadFileReferenceKey", "dtformats/amcache.py:WindowsAMCacheFile._ReadProgramKey", "dtformats/amcache.py:WindowsAMCacheFile._ReadApplicationKey", "dtformats/amcache.py:WindowsAMCacheFile._ReadApplicationFileKey"]}
{"id": "C170", "title": "The text output of the unified logging script shows every log entry in one line", "statement": "In the text format every log entry of a file is shown, in order of time, as one line below a heading, from which date and time, thread, type, activity, process, time to live and message can be read; the line tells the name of the process and of the sender, the sub system and the category; fields are below their headings; of a damaged file the entries before the damage are shown; of a shared-cache strings file every UUID is shown with its path and every range with the UUID it belongs to.", "quantifier": "all trace files and shared-cache strings files: any number of entries, UUIDs and ranges, any identifiers, names and messages", "why_tests_cant": "Messages are any text, so that a line may look like the line of another entry; that no two entries have the same line is a statement about all pairs of them.", "anchors": ["scripts/unified_logging.py:Main", "dtformats/unified_logging.py:TraceV3File.ReadLogEntries", "dtformats/unified_logging.py:DSCFile.ReadFileObject", "dtformats/unified_logging.py:LogEntry"]}
{"id": "C171", "title": "The analyzer shows the structures of a VHDX image by the members of their definition", "statement": "The analyzer shows of a file its file information, its two headers and its two region tables, in this order: each member of the definition by its name and value, integers in decimal, checksums and offsets in hexadecimal, identifiers as text, streams as hexadecimal dump and every entry of a table by its number and members; what was shown before does not change how a structure is shown; structures before the first that cannot be read are shown; the size and the offset of the log are those of the header.", "quantifier": "all definitions and structures: any number of members and elements, nested to any depth; all files of any size and content, with any number of entries in a region table", "why_tests_cant": "The text is made of a definition at run time and kept by name for the next structure; a test shows one file with one definition, not that any order of structures gives the same text.", "anchors": ["scripts/analyzer.py:BinaryDataFormatAnalyzer", "dtformats/vhdx.yaml", "dtformats/data_format.py:BinaryDataFormat._FormatStructureObject"]}
{"id": "C172", "title": "What is shown of the records of a metafile in debug mode is what is stored", "statement": "In debug mode the script shows of a Windows (Enhanced) Metafile its headers and all records in order: of each record the offset and type and size, its own data and the values in it by their names, such as modes, coordinates, colors and raster operations; a file that can be read can be read in debug mode too; a Windows Metafile is read as one whatever its records contain.", "quantifier": "all files of both formats with or without placeable, with any number of records of any type, size and content; all 16-bit and 32-bit values; all 256 raster operations", "why_tests_cant": "The offset of each record changes what is shown of its data, and tables of hundreds of names are used; a test shows some records and compares some names with themselves.", "anchors": ["dtformats/wemf.py:EMFFile._ReadRecordData", "dtformats/wemf.py:WMFFile._ReadRecordData", "dtformats/wemf.py:WMFFile._WMF_RASTER_OPERATIONS", "scripts/wemf.py:Main", "dtformats/emf.yaml", "dtformats/wmf.yaml"]}
{"id": "C173", "title": "The configuration of a job file is that stored", "statement": "Reading a Windows Task Scheduler job file gives the configuration stored in it: identifier, retry count and interval, priority, application name, parameters, working directory, author and comment, whatever the strings, streams, triggers and what follows them; any other file gives a parse error and no configuration; debug output shows all members of the sections and of all triggers and changes nothing else; the script shows the identifier and the texts such that they can be told apart.", "quantifier": "all job files with strings, streams and numbers of triggers of any length and any values of the members; all byte strings for the errors", "why_tests_cant": "The sections are read in pieces whose sizes are stored in those before; a test reads one file with one trigger.", "anchors": ["dtformats/job.py:WindowsTaskSchedulerJobFile.ReadFileObject", "dtformats/job.py:WindowsTaskSchedulerJobFile._FormatString", "dtformats/job.yaml", "dtformats/job.debug.yaml", "scripts/job.py:Main", "dtformats/data_format.py:BinaryDataFormat._ReadStructureObjectFromFileObject"]}
{"id": "C174", "title": "The files beside a trace file are those of its log, and an image is read by the requested back-end", "statement": "The strings of an identifier are read from the file below the directory of the log that is named after the identifier (dsc and the identifier, or its first two digits and the others), the time synchronisation from that in its directory, with either file system helper; different identifiers have different files and no file serves both kinds; there is none if the directory is not known or the file is absent. The back-end for a format is that of the last request for it or for TSK. An image is opened if and only if exactly one file system is found by the options.", "quantifier": "all directories, identifiers, file names and file systems; all sequences of back-end requests; all options and outcomes of scanning an image", "why_tests_cant": "A test opens one file of one log; the directories of another log or a back-end set by an earlier call are not seen by it.", "anchors": ["dtformats/unified_logging.py:TraceV3File._OpenDSCFile", "dtformats/unified_logging.py:TraceV3File._OpenUUIDTextFile", "dtformats/unified_logging.py:TraceV3File._OpenTimesyncDatabaseFile", "dtformats/file_system.py:NativeFileSystemHelper.JoinPath", "dtformats/dfvfs_helpers.py:DFVFSFileSystemHelper", "dtformats/dfvfs_helpers.py:SetDFVFSBackEnd", "dtformats/dfvfs_helpers.py:ParseDFVFSCLIArguments", "scripts/unified_logging.py:Main"]}
{"id": "C175", "title": "Debug mode shows every structure, and every member of it", "statement": "In debug mode every structure that was read is shown, whatever its values: no member is passed to a formatter of another type. Every member that is not a structure itself is in the text, so that structures with other numbers, offsets, streams or arrays have another text. Every format that a definition asks for is that of a formatter.", "quantifier": "all 178 combinations of a debug definition and a structure it is used for, all values of the members, all other members", "why_tests_cant": "A test shows structures of test files; a value of another type, or a member that is silently left out because its name is misspelled, does not fail it.", "anchors": ["dtformats/data_format.py:BinaryDataFormat._FormatStructureObject", "dtformats/data_format.py:BinaryDataFormat.ReadDebugInformationFile", "dtformats/data_format.py:BinaryDataFormat._FormatValue", "dtformats/keychain.debug.yaml:keychain_table_header", "dtformats/wmi_repository.debug.yaml:cim_rep_instance_branch_node", "dtformats/recycler.py:RecyclerInfo2File._ReadFileHeader", "dtformats/firefox_cache1.debug.yaml:firefox_cache1_map_record"]}
{"id": "C176", "title": "Debug mode does not change what is read of a WMI repository", "statement": "The index pages, mapping files and node cells that are read of a WMI repository are the same with and without debug mode: writing debug output neither fails nor changes the result, and the page numbers that are written are those of the file.", "quantifier": "all contents of index pages, mapping files and repository files, all numbers of keys, values, sub pages, mappings and node cells", "why_tests_cant": "The tests pass an output writer but do not turn on debug mode; which page numbers can be formatted depends on how many digits they have.", "anchors": ["dtformats/wmi_repository.py:IndexBinaryTreeFile._DebugPrintPageBody", "dtformats/wmi_repository.py:IndexBinaryTreeFile._ReadPageKeyData", "dtformats/wmi_repository.py:MappingFile._DebugPrintUnknownTable", "dtformats/wmi_repository.py:RepositoryFile.ReadFileObject"]}
{"id": "C177", "title": "The attributes of a Spotlight database are shown as they were read", "statement": "Every metadata attribute that is read of an Apple Spotlight store database can be written as debug output, one line for every value of a list with its index, and the text determines the integers, bytes and data that were read.", "quantifier": "all contents of records, all metadata types, all attribute values and lists of any length, all results of date and time conversion", "why_tests_cant": "The tests read a few records without debug output; whether an attribute can be shown depends on its value type, property type, its value and what the date and time library makes of it.", "anchors": ["dtformats/spotlight_storedb.py:SpotlightStoreDatabaseFile._DebugPrintMetadataAttribute", "dtformats/spotlight_storedb.py:SpotlightStoreDatabaseFile._DebugPrintCocoaTimeValue", "dtformats/spotlight_storedb.py:SpotlightStoreDatabaseFile._ReadMetadataAttribute"]}
{"id": "C178", "title": "Cookies of a Safari cookies file are shown whenever they are read", "statement": "Every Safari binary cookies file that is read is also read in debug mode, with the same cookies, and the expiration and creation times that are written are those of the records, to the second.", "quantifier": "all contents of files, pages and records, all 64-bit floating-point times including infinities and values that are not numbers", "why_tests_cant": "One test reads a sample file in debug mode and does not look at what is written; whether a time can be written depends on its value, and whether the day that is written is right depends on the calendar of every year.", "anchors": ["dtformats/safari_cookies.py:BinaryCookiesFile._DebugPrintRecordHeader", "dtformats/safari_cookies.py:BinaryCookiesFile._ReadRecord"]}
{"id": "C179", "title": "The index of a Chrome cache is shown whenever it is read", "statement": "Every index file of a Chrome cache that is read is also read in debug mode, with the same table; the creation time that is written is that of the file, to the microsecond, and every address is written with its position and as text that determines it.", "quantifier": "all contents of index files, all creation times, all addresses and tables of any size", "why_tests_cant": "The tests read one sample file; whether the debug output can be written depends on the creation time and on the file type of every address.", "anchors": ["dtformats/chrome_cache.py:IndexFile._ReadFileHeader", "dtformats/chrome_cache.py:IndexFile._DebugPrintLRUData", "dtformats/chrome_cache.py:IndexFile._ReadIndexTable", "dtformats/chrome_cache.py:IndexFile._FormatIntegerAsTimestamp", "dtformats/chrome_cache.py:CacheAddress.GetDebugString"]}
{"id": "C180", "title": "The ranges of allocated blocks of a Chrome cache data block file are shown", "statement": "In debug mode the ranges of blocks that are written for a data block file are exactly the maximal ranges of blocks of which the bit in the allocation bitmap is set, in the order of the blocks, with the first block, the block after the last and the number of blocks.", "quantifier": "all bitmaps of any size, all data block files, all block numbers", "why_tests_cant": "No test writes debug output of a data block file; the number of bitmaps is not bounded and the fault only shows if the last block is allocated.", "anchors": ["dtformats/chrome_cache.py:DataBlockFile._DebugPrintAllocationBitmap", "dtformats/chrome_cache.py:DataBlockFile._DebugPrintFileHeader", "dtformats/chrome_cache.py:DataBlockFile._ReadFileHeader"]}
{"id": "C181", "title": "All login records of a utmp or utmpx file are shown in debug mode", "statement": "In debug mode every entry of a utmp or utmpx file is written with its offset, its data and all its members in the order of the format; what is raised is what is raised without debug mode; a file without the header of a utmpx file is refused with a ParseError.", "quantifier": "all contents of files, all decoders of UTF-8, all texts of POSIX times", "why_tests_cant": "No test reads a file in debug mode with strings that are not UTF-8; the contents and the number of entries are not bounded.", "anchors": ["dtformats/utmp.py:LinuxLibc6UtmpFile._DebugPrintEntry", "dtformats/utmp.py:LinuxLibc6UtmpFile._ReadEntries", "dtformats/utmp.py:MacOSXUtmpxFile._DebugPrintEntry", "dtformats/utmp.py:MacOSXUtmpxFile._ReadEntries", "dtformats/data_format.py:BinaryDataFormat._DebugPrintPosixTimeValue"]}
{"id": "C182", "title": "The script shows the volume path and the entries of a restore point change log", "statement": "scripts/rp_change_log.py shows, of every change log that can be read, the volume path and for every entry the names of its types, the names of its flags, its sequence number and its process name.", "quantifier": "all contents of files, all volume paths, all lists of entries, all decoders of UTF-16", "why_tests_cant": "No test runs the script; that an attribute is never assigned for any file is not shown by a run for one of them.", "anchors": ["scripts/rp_change_log.py:Main", "dtformats/rp_change_log.py:RestorePointChangeLogFile.__init__", "dtformats/rp_change_log.py:RestorePointChangeLogFile._ReadVolumePath", "dtformats/rp_change_log.py:RestorePointChangeLogFile._ReadChangeLogEntry", "dtformats/rp_change_log.py:RestorePointChangeLogFile.LOG_ENTRY_TYPES"]}
{"id": "C183", "title": "The script shows the records of a USN journal", "statement": "scripts/usn_journal.py shows every record of a journal as a line with its date and time, its name, its file reference and its parent file reference, after a line with the names of these columns.", "quantifier": "all contents of files, all decoders of UTF-16", "why_tests_cant": "No test runs the script; the contents and the number of records are not bounded.", "anchors": ["scripts/usn_journal.py:Main", "dtformats/usn_journal.py:USNRecords.ReadRecords", "dtformats/output_writers.py:StdoutWriter.WriteText"]}
{"id": "C184", "title": "A restore point log is shown only in debug mode, with all its values", "statement": "In debug mode all values of a restore point log are written: type of event, type of restore point, sequence number, description, the data after it and the creation time; without debug mode nothing is written; what is raised is the same.", "quantifier": "all contents of files, all decoders of UTF-16, all texts of FILETIMEs", "why_tests_cant": "The one test that reads a whole log does so in debug mode, the others read the header or the footer; contents and sizes are not bounded.", "anchors": ["dtformats/rp_log.py:RestorePointLogFile.ReadFileObject", "dtformats/rp_log.py:RestorePointLogFile._DebugPrintFileHeader", "dtformats/rp_log.py:RestorePointLogFile._DebugPrintFileFooter", "dtformats/data_format.py:BinaryDataFormat._DebugPrintFiletimeValue", "dtformats/data_format.py:BinaryDataFormat._DebugPrintData"]}
{"id": "C185", "title": "All values of a time zone information file are shown in debug mode", "statement": "In debug mode the header, all transition times, all types of local time and the data of the other tables of each block of a time zone information file are written, and the time zone string; what is raised is what is raised without debug mode.", "quantifier": "all contents of files, all numbers of transitions", "why_tests_cant": "The number of transitions is not bounded; tests compare no text with the contents of a file.", "anchors": ["dtformats/tzif.py:TimeZoneInformationFile.ReadFileObject", "dtformats/tzif.py:TimeZoneInformationFile._DebugPrintFileHeader", "dtformats/tzif.py:TimeZoneInformationFile._DebugPrintTransitionTimes", "dtformats/tzif.py:TimeZoneInformationFile._DebugPrintTransitionTimeIndex"]}
{"id": "C186", "title": "A structure is read by the definition of its name, whatever was read before", "statement": "An object reads a structure by the definition that the definition file of its class has for the name, whatever was requested before, of this object and of others; the map of a name is made once for an object, and no two objects share one; a name that is not defined, or a class without definition file, is refused.", "quantifier": "all definition files, all sequences of requests of any number of objects", "why_tests_cant": "What is remembered depends on all requests before; tests make one object and read one file.", "anchors": ["dtformats/data_format.py:BinaryDataFormat._GetDataTypeMap", "dtformats/data_format.py:BinaryDataFormat._ReadStructureObjectFromFileObject", "dtformats/data_format.py:BinaryDataFormat._ReadStructureFromByteStream"]}
{"id": "C187", "title": "The scripts read a file with the reader of its kind", "statement": "Every Enhanced and every Windows Metafile, every utmp file of Linux and utmpx file of macOS, every file of the unified log and every cache file of Firefox 1 is given to the reader of its format and its records are read; a Firefox file of another name is refused.", "quantifier": "all files of these formats, of any number of records; all paths", "why_tests_cant": "Tests of the scripts do not exist, and the choice rests on few bytes that any record of the other format may have.", "anchors": ["scripts/wemf.py:Main", "scripts/utmp.py:Main", "scripts/unified_logging.py:Main", "scripts/firefox_cache1.py:Main"]}
{"id": "C188", "title": "The scripts report the values of Recycle.Bin files, cpio archives and Prefetch hashes", "statement": "The report of a Recycle.Bin metadata file has its version, deletion time, original name and size, in a line each, so that files that differ have reports that differ; the report of a cpio archive has the name of its format and its size; the report of a path has its three hashes with eight digits each. A file that is refused is not reported.", "quantifier": "all metadata files, times and names, all archives of the five formats, all paths", "why_tests_cant": "Tests do not look at what the scripts print, and no sample covers names, times or archives of all kinds.", "anchors": ["scripts/recycle_bin.py:Main", "scripts/cpio.py:Main", "scripts/prefetch_hash.py:Main"]}
{"id": "C189", "title": "Text stored in UTF-8 or UTF-16 comes out as the text that was stored", "statement": "Decoding the UTF-8 or UTF-16 (little-endian) encoding of a text gives the text, and whatever is decoded without an error is the encoding of what comes out, so that two stored values never give one text. Hence texts of any characters come out of catalogs and memberships of unified logs, of fseventsd pages, Apple System Log strings and Spotlight values, of WMI classes, Recycle.Bin metadata files and restore point logs as they were stored, as long as they have no U+0000 where that ends the value.", "quantifier": "all sequences of Unicode characters, all sequences of bytes or UTF-16 units", "why_tests_cant": "Sample files hold ASCII, mostly, and no test decodes all characters, nor malformed sequences of every kind.", "anchors": ["dtformats/asl.py:AppleSystemLogFile", "dtformats/fseventsd.yaml", "dtformats/aul_tracev3.yaml", "dtformats/wmi_repository.yaml", "dtformats/recycle_bin.yaml", "dtformats/rp_log.yaml", "dtformats/spotlight_storedb.yaml"]}
{"id": "C190", "title": "Dates and times that are shown are those of the calendar, and no two stored times are shown alike", "statement": "In debug output a FILETIME, HFS time or POSIX time (in seconds, microseconds or nanoseconds) is shown as the date of the Gregorian calendar, the time of the day and the full fraction of the stored value, with UTC; only 0 is shown as not set and only the largest signed FILETIME as never; an HFS time of more than 32 bits is shown as a number. Two values are never shown as one text, and the texts of times before the year 10000 sort as the times do.", "quantifier": "all integers", "why_tests_cant": "Tests format one or two times each; leap years, the end of ranges, fractions, negative values and the comparison of all pairs of values are out of reach.", "anchors": ["dtformats/data_format.py:BinaryDataFormat._FormatIntegerAsFiletime", "dtformats/data_format.py:BinaryDataFormat._FormatIntegerAsHFSTime", "dtformats/data_format.py:BinaryDataFormat._FormatIntegerAsPosixTime", "dtformats/data_format.py:BinaryDataFormat._FormatIntegerAsPosixTimeInMicroseconds", "dtformats/data_format.py:BinaryDataFormat._FormatIntegerAsPosixTimeInNanoseconds", "dtformats/data_format.py:BinaryDataFormat._DebugPrintFiletimeValue", "dtformats/data_format.py:BinaryDataFormat._DebugPrintPosixTimeValue"]}
{"id": "C191", "title": "The time of a log entry in the output of the unified logging script is its time of the calendar, cut to microseconds", "statement": "In the text and JSON output of scripts/unified_logging.py the time of an entry is the date of the Gregorian calendar, the time of day in UTC and six digits of the fraction, which is the whole number of microseconds not after its timestamp in nanoseconds, also before 1970; the texts sort as the times do; the JSON output is JSON whatever the times are. That two timestamps are shown differently is false: they are shown alike exactly when they are in the same microsecond.", "quantifier": "all timestamps in nanoseconds of the years 1 to 9999, all entries", "why_tests_cant": "No test runs the script; that cutting a text at fixed positions rounds down for all times, and which pairs of times are confused, is a statement about all of them.", "anchors": ["scripts/unified_logging.py:GetDateTimeString", "scripts/unified_logging.py:Main"]}
{"id": "C192", "title": "What debug output shows of logins and restore points are the texts and times that were stored", "statement": "For a utmp or utmpx file whose entries hold texts of any characters in UTF-8, filled with zeros, what is written in debug mode shows the terminal, the user, the host and the time of each login, in order, the time being that of the calendar; for an rp.log file it shows the description, stored in UTF-16, and the creation time. For a text with a zero character in it this is false: it is shown without that character, so that two names are shown as one.", "quantifier": "all files, numbers of entries, texts and times", "why_tests_cant": "Tests read one file each in debug mode and do not look at what is written; texts outside ASCII, negative times and texts with zeros in them are too many for samples.", "anchors": ["dtformats/utmp.py:LinuxLibc6UtmpFile._DebugPrintEntry", "dtformats/utmp.py:MacOSXUtmpxFile._DebugPrintEntry", "dtformats/rp_log.py:RestorePointLogFile._DebugPrintFileHeader", "dtformats/rp_log.py:RestorePointLogFile._DebugPrintFileFooter"]}
{"id": "C193", "title": "Texts of scheduled tasks, printing requests and aliases come out whatever their characters are", "statement": "The application name, parameters, working directory, author and comment of a Windows Task Scheduler job, stored in UTF-16 with a terminator, are those of the configuration that is read, and the script shows them; the names and texts of the attributes of a CUPS IPP request that has said its character set is utf-8 are read as they were stored; the UTF-8 and UTF-16 texts of alias data are read as they were stored, in versions 2 and 3 of the format. As long as a request has not given a character set, a text with a character that is not ASCII raises a UnicodeDecodeError instead of a ParseError.", "quantifier": "all texts, tasks, requests and aliases", "why_tests_cant": "Tests read a few files; that every character, also outside the basic multilingual plane, is stored and read the same is a statement about all texts.", "anchors": ["dtformats/job.py:WindowsTaskSchedulerJobFile.ReadFileObject", "scripts/job.py:Main", "dtformats/cups_ipp.py:CupsIppFile._ReadAttribute", "dtformats/alias_data.py:MacOSLoginItemAliasData.ReadFileObject"]}
{"id": "C194", "title": "Debug output of USN change journals", "statement": "In debug mode reading a USN change journal gives the same records as otherwise and ends the same way, as far as the names can be decoded; the first name that is not UTF-16 is a ParseError. Before each record is given, its offset, a hexadecimal dump of all its bytes and its values are written: size, version, references, the time of the calendar, flags, security descriptor, and the name with all its characters, each on a line of its own. The records of a block are shown at the offsets at which they are stored. The script shows only the first record in debug mode and then raises an AttributeError.", "quantifier": "all files; for the text, all journals whose blocks but the last are filled with records, with names without an end of line or zero character", "why_tests_cant": "There are no tests of the change journal; what is written of every value of every field is a statement about all records, times and names.", "anchors": ["dtformats/usn_journal.py:USNRecords.ReadRecords", "dtformats/usn_journal.py:USNRecords._ReadRecordV2", "dtformats/usn_journal.debug.yaml:usn_record_v2", "scripts/usn_journal.py:Main"]}
{"id": "C195", "title": "Debug output of restore point change logs", "statement": "In debug mode everything that is stored in a restore point change log is written, in the order of the file: the offset and the bytes of the file header and of each entry, the sizes, the types of records with their names, the volume path without its terminator, the type, flags, attributes and sequence number of each entry with one line for every flag that has a name, the texts of second paths, temporary paths and short names with all their characters, and the copies of the sizes. What can be read in debug mode can be read without it and gives the same entries. The script writes all of this before its title and then raises TypeError.", "quantifier": "all logs: volume paths, entries, texts of any characters but zero and any number of records; for the comparison with the other mode, all files", "why_tests_cant": "The tests show made-up headers and an entry without looking at what is written and read one file without debug mode; what is written for all values of all fields, names and texts is a statement about all logs.", "anchors": ["dtformats/rp_change_log.py:RestorePointChangeLogFile._ReadChangeLogEntry", "dtformats/rp_change_log.py:RestorePointChangeLogFile._ReadFileHeader", "dtformats/rp_change_log.py:RestorePointChangeLogFile._ReadRecord", "dtformats/rp_change_log.py:RestorePointChangeLogFile._ReadVolumePath", "scripts/rp_change_log.py:Main"]}
{"id": "C196", "title": "Debug output of Recycler INFO2 files", "statement": "In debug mode a Recycler INFO2 file is read with the same entries as otherwise if all names of all entries can be decoded; if one cannot, a ParseError is raised, and a file that is refused otherwise is refused. The entries are shown in order: the name in codepage 1252, the index, the drive, the deletion time as the time of the calendar, the size, and the name in UTF-16 with all its characters. The name in the codepage is shown with all 260 bytes of its field, what comes after its terminator included, and the values of the file header are not shown. The script writes all of this and then its title.", "quantifier": "all files; for the text, all headers, both sizes of entries and all entries whose name in the codepage has no end of line", "why_tests_cant": "The tests read one file in debug mode and do not look at what is written; which bytes of a name stand for which characters, what becomes of the rest of the field and what is shown of every value are statements about all names and values.", "anchors": ["dtformats/recycler.py:RecyclerInfo2File._FormatANSIString", "dtformats/recycler.py:RecyclerInfo2File._ReadFileEntry", "dtformats/recycler.py:RecyclerInfo2File._ReadFileHeader", "dtformats/recycler.py:RecyclerInfo2File.ReadFileObject", "dtformats/recycler.debug.yaml:recycler_info2_file_entry", "scripts/recycler.py:Main"]}
{"id": "C197", "title": "Debug output of Recycle.Bin metadata files", "statement": "What is read of a Recycle.Bin metadata file in debug mode is what is read otherwise, and a file that is refused otherwise is refused with the same exception. For both versions of the format all that is stored is shown: the bytes of the header and of the name with the offsets at which they are, the version, the size, the deletion time as the time of the calendar, and the name with all its characters and without its terminator. The script writes all of this and then its report, with the same values.", "quantifier": "all files; for the text, both versions of the format, all sizes, all deletion times, all names without a NUL character and all that comes after them", "why_tests_cant": "The tests read a few files in debug mode and do not look at what is written; that no value, no byte and no character is lost or changed is a statement about all files.", "anchors": ["dtformats/recycle_bin.py:RecycleBinMetadataFile._ReadFileHeader", "dtformats/recycle_bin.py:RecycleBinMetadataFile._ReadOriginalFilename", "dtformats/recycle_bin.py:RecycleBinMetadataFile.ReadFileObject", "dtformats/recycle_bin.debug.yaml:recycle_bin_metadata_file_header", "scripts/recycle_bin.py:Main"]}
{"id": "C198", "title": "Debug output of fseventsd files", "statement": "In debug mode the same records of an fseventsd file are read as otherwise, and the same files are refused with the same exceptions. All that is stored is shown, page by page and event by event: the bytes of every page header and record with the offsets at which they are, the version and the size of the page, and of every event its path with all its characters, its identifier, its flags and, in the second version, its node, each on a line of its own. The script writes all of this and then its title; this is all that it tells of the events.", "quantifier": "all decompressed data; for the text, all sequences of pages of both versions with all events whose paths have no NUL character", "why_tests_cant": "The tests read a few files in debug mode and do not look at what is written; that no event, value or character is lost, in any number of pages and for every path, is a statement about all files.", "anchors": ["dtformats/fseventsd.py:FseventsFile._ReadDLSPageHeader", "dtformats/fseventsd.py:FseventsFile._ReadDLSRecord", "dtformats/fseventsd.py:FseventsFile.ReadFileObject", "dtformats/fseventsd.debug.yaml:dls_record", "scripts/fseventsd.py:Main"]}
{"id": "C199", "title": "Debug output of gzip files", "statement": "In debug mode the same members of a gzip file are read as otherwise, and the same files are refused with the same exceptions. Of every member the bytes of the header, of the size of the extra field, of the strings and of the footer are shown with the offsets at which they are, and all values: the flags, the modification time as the time of the calendar, the system, the name and the comment with all their characters, the checksum and the size. The script writes all of this and then its title.", "quantifier": "all files, all behaviours of zlib and all sizes of the buffer; for the text, all sequences of members with any of the optional fields, whose data is not empty and whose streams fit in the buffer", "why_tests_cant": "No test reads a gzip file in debug mode; that every optional field is shown where it is, in any combination and in every member, is a statement about all files.", "anchors": ["dtformats/gzipfile.py:GZipFile._ReadMemberHeader", "dtformats/gzipfile.py:GZipFile._ReadMemberFooter", "dtformats/gzipfile.py:GZipFile.ReadFileObject", "dtformats/gzipfile.debug.yaml:gzip_member_header", "dtformats/gzipfile.yaml:gzip_member_header", "scripts/gzipfile.py:Main"]}
{"id": "C200", "title": "Debug output of Firefox cache map files", "statement": "In debug mode the same records of a Firefox cache map file are read as otherwise, and the same files are refused with the same exceptions. The bytes of the header and of every record are shown with the offsets at which they are, and all values of the header, with the lists of ranks and usages, and of the records, with the locations by their parts. The script writes all of this and then its title.", "quantifier": "all files; for the text, all map files with any number of records and all values of their fields", "why_tests_cant": "There are no tests of Firefox cache files; that no value and no record is lost is a statement about all files, and a format that is misspelled raises nothing.", "anchors": ["dtformats/firefox_cache1.py:CacheMapFile._ReadFileHeader", "dtformats/firefox_cache1.py:CacheMapFile._ReadRecord", "dtformats/firefox_cache1.py:CacheMapFile.ReadFileObject", "dtformats/firefox_cache1.debug.yaml:firefox_cache1_map_record", "dtformats/data_format.py:BinaryDataFormat._FormatArrayOfIntegersAsDecimals", "scripts/firefox_cache1.py:Main"]}
{"id": "C201", "title": "Debug output of Firefox cache block files", "statement": "In debug mode the same entries of a Firefox cache block file are read as otherwise, and the same files are refused with the same exceptions. Every entry is shown with the offset at which it is, its bytes and all its values: versions, location, counts, times of the calendar, sizes, the request without the zeros at its end and the bytes of the information. Of a block that is not in use no values are shown. The script writes all of this and then its title.", "quantifier": "all files and file names; for the text, all sequences of entries and blocks that are not in use, as in C105, whose requests have zeros only at their end", "why_tests_cant": "There are no tests of Firefox cache files; that no entry and no value is lost, wherever it is and whatever is between entries, is a statement about all files.", "anchors": ["dtformats/firefox_cache1.py:CacheBlockFile._ReadCacheEntry", "dtformats/firefox_cache1.py:CacheBlockFile.ReadFileObject", "dtformats/firefox_cache1.debug.yaml:firefox_cache1_entry", "dtformats/data_format.py:BinaryDataFormat._FormatIntegerAsPosixTime", "scripts/firefox_cache1.py:Main"]}
{"id": "C202", "title": "Debug output of the data objects of systemd journals", "statement": "In debug mode the same data is read from a data object of a systemd journal as otherwise, and the same objects are refused with the same exceptions. An object is shown with the offset at which it is, its bytes and its values: type, compression, reserved bytes, hash, offsets and the number of entries. Its size is meant to be shown as well.", "quantifier": "all files and offsets; for the text, all data objects with any compression that is supported and all data, anywhere in a file", "why_tests_cant": "There are no tests of systemd journals; that no value is lost, whatever the data and wherever the object is, is a statement about all objects.", "anchors": ["dtformats/systemd.py:SystemdJournalFile._ReadDataObject", "dtformats/systemd.py:SystemdJournalFile._FormatIntegerAsObjectFlags", "dtformats/systemd.py:SystemdJournalFile._FormatIntegerAsObjectType", "dtformats/systemd.debug.yaml:systemd_journal_object_header", "dtformats/systemd.debug.yaml:systemd_journal_data_object_values"]}
{"id": "C203", "title": "Debug output of the entry arrays of systemd journals", "statement": "In debug mode the same offsets of entries are read from the entry arrays of a systemd journal as otherwise, and the same files are refused with the same exceptions. The arrays are shown in the order in which they follow each other. Each is shown with the offset at which it is, its bytes, its type, flags and reserved bytes, the offset of the next array and a numbered line for each offset of an entry.", "quantifier": "all files and offsets; for the text, all chains of arrays of any length with any offsets of entries, anywhere in a file and also such as overlap", "why_tests_cant": "There are no tests of systemd journals; that no array and no offset is lost, however many there are, is a statement about all chains.", "anchors": ["dtformats/systemd.py:SystemdJournalFile._ReadEntryArrayObject", "dtformats/systemd.py:SystemdJournalFile._FormatEntryObjectOffsets", "dtformats/systemd.py:SystemdJournalFile.ReadFileObject", "dtformats/systemd.debug.yaml:systemd_journal_object_header", "dtformats/systemd.debug.yaml:systemd_journal_entry_array_object_values"]}
{"id": "C204", "title": "Debug output of the entries of systemd journals", "statement": "In debug mode the same entries and data are read from a systemd journal as otherwise, and the same files are refused with the same exceptions. The entries are shown in the order of their offsets in the entry arrays; offsets that are 0 are left out. Each is shown with the offset at which it is, its bytes and values, its time as one of the calendar in microseconds and two numbered lines for each item. After it all of its data objects are shown.", "quantifier": "all files and lists of offsets; for the text, all entries with any number of items and data objects, anywhere in a file and also such as share data objects or overlap", "why_tests_cant": "There are no tests of systemd journals; that no entry, item or data object is lost, however many there are, is a statement about all journals.", "anchors": ["dtformats/systemd.py:SystemdJournalFile._ReadEntryObject", "dtformats/systemd.py:SystemdJournalFile._FormatEntryItems", "dtformats/systemd.py:SystemdJournalFile.ReadFileObject", "dtformats/systemd.debug.yaml:systemd_journal_entry_object_values", "dtformats/data_format.py:BinaryDataFormat._FormatIntegerAsPosixTimeInMicroseconds"]}
{"id": "C205", "title": "Debug output of systemd journals", "statement": "In debug mode the same entries are read from a systemd journal as otherwise, and the same files are refused with the same exceptions. The header is shown with all its values, its flags, identifiers, sizes, offsets, counts and the times of the first and the last entry as times of the calendar in microseconds. Then all entry arrays are shown, and then all entries, each with its data objects. The script writes all of this and then its title.", "quantifier": "all files; for the text, all journals with any header, any chain of entry arrays, any entries and any data objects, anywhere in the file", "why_tests_cant": "There are no tests of systemd journals; that nothing is lost and nothing else is shown, however many arrays and entries there are, is a statement about all journals.", "anchors": ["dtformats/systemd.py:SystemdJournalFile._ReadFileHeader", "dtformats/systemd.py:SystemdJournalFile.ReadFileObject", "dtformats/systemd.debug.yaml:systemd_journal_file_header", "scripts/systemd.py:Main"]}
{"id": "C206", "title": "Debug output of timesync databases", "statement": "In debug mode the same records are read from a timesync database as otherwise, and the same files are refused with the same exceptions. All records are shown in their order, each with the offset at which it is, its bytes and all its values: signature, size, the boot identifier as text with the timebase or the kernel time, the time as one of the calendar in nanoseconds, the time zone offset with its sign, and the daylight saving flag.", "quantifier": "all files; for the text, all databases of any number of boot and sync records with any values", "why_tests_cant": "The tests read one boot record and one sync record of one file and not in debug mode, so that no debug output is ever written; that nothing is lost and nothing else is shown, for negative offsets and times as well, is a statement about all databases.", "anchors": ["dtformats/unified_logging.py:TimesyncDatabaseFile._ReadRecord", "dtformats/unified_logging.py:TimesyncDatabaseFile.ReadRecords", "dtformats/aul_timesync.debug.yaml:timesync_boot_record", "dtformats/aul_timesync.debug.yaml:timesync_sync_record"]}
{"id": "C207", "title": "Debug output of uuidtext files", "statement": "In debug mode the same entries and the same image path are read from a uuidtext file as otherwise, and the same files are refused with the same exceptions. The header is shown with its bytes, signature, format version and number of entries, and with one line for each entry, in their order, with its number, offset and size. Then the footer with the image path is shown, from where the strings of the last entry end.", "quantifier": "all files; for the text, all uuidtext files with any number of entries of any offsets and sizes", "why_tests_cant": "The tests read the header of one file without entries and not in debug mode, so that no entry is ever formatted; that each entry has its line and that exactly one empty line ends the list, also for no entries, is a statement about all files.", "anchors": ["dtformats/unified_logging.py:UUIDTextFile._FormatArrayOfEntryDescriptors", "dtformats/unified_logging.py:UUIDTextFile._ReadFileHeader", "dtformats/unified_logging.py:UUIDTextFile.ReadFileObject", "dtformats/aul_uuidtext.debug.yaml:uuidtext_file_header"]}
