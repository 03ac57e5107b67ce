import Verif.Py
import Verif.DataRange.Props
import Verif.DataFormat.Props
import Verif.Prefetch.Props
import Verif.Text
import Verif.HexDump.Props
import Verif.ChromeCache.Props
import Verif.DataFormat.Sized
import Verif.LevelDB.Log
import Verif.LevelDB.Records
import Verif.LevelDB.Table
import Verif.LevelDB.IndexedDB
import Verif.Cpio.Props
import Verif.Spotlight.Records
import Verif.Asl.Props
import Verif.Formats.Props
import Verif.Sequence
import Verif.Unified.Strings
import Verif.Unified.Trace
import Verif.Unified.Caches
import Verif.Unified.Chunks
import Verif.Unified.FormatStrings
import Verif.Unified.Printf
import Verif.Wmi.Objects
import Verif.Wmi.Index
import Verif.Wmi.Mapping
import Verif.Wmi.Classes
import Verif.Slices
import Verif.Usn
import Verif.Systemd
import Verif.ChangeLog
import Verif.Fsevents
import Verif.Ipp
import Verif.Gzip
import Verif.Wemf
import Verif.Bsm
import Verif.Keychain
import Verif.Holds
import Verif.Tzif
import Verif.Cookies
import Verif.Records
import Verif.JumpList
import Verif.Firefox
import Verif.Amcache
import Verif.Detection
import Verif.Bookmark
import Verif.Unified.Decoders
import Verif.Unified.Tables
import Verif.Unified.Location
import Verif.Unified.Points
import Verif.Unified.Values
import Verif.Unified.Catalog
import Verif.Double
import Verif.Unified.Dumps
import Verif.Unified.Scale
import Verif.Unified.Entries
import Verif.Wmi.Definitions
import Verif.Wmi.Instances
import Verif.Wmi.Tree
import Verif.Wmi.Repository
import Verif.Spotlight.Tables
import Verif.Spotlight.Store
import Verif.Alias
import Verif.Unified.Signposts
import Verif.Unified.Reader
import Verif.Scripts.Heap
import Verif.Scripts.Json
import Verif.Scripts.LogJson
import Verif.Errors
import Verif.Scripts.Archiver
import Verif.Scripts.Dumps
import Verif.Scripts.Hasher
import Verif.Boundaries
import Verif.Lifecycle
import Verif.Scripts.Tight
import Verif.ChromeCache.Files
import Verif.DebugInfo
import Verif.Scripts.Shortcuts
import Verif.Scripts.LevelDb
import Verif.Scripts.Spotlight
import Verif.Scripts.Keychain
import Verif.Scripts.Wmi
import Verif.AmcacheKeys
import Verif.Scripts.LogText
import Verif.Scripts.Analyzer
import Verif.Scripts.Vhdx
import Verif.WemfDebug
import Verif.DataFormat.Progressive
import Verif.Uuid
import Verif.Job
import Verif.Unified.Companions
import Verif.DebugTables
import Verif.DebugShown
import Verif.Wmi.DebugMode
import Verif.Spotlight.DebugText
import Verif.Calendar
import Verif.CookiesDebug
import Verif.ChromeCache.DebugMode
import Verif.ChromeCache.Bitmap
import Verif.UtmpDebug
import Verif.Scripts.Journals
import Verif.RpLogDebug
import Verif.TzifDebug
import Verif.TypeMaps
import Verif.Scripts.Dispatch
import Verif.Scripts.Reports
import Verif.Utf
import Verif.Utf.Texts
import Verif.Dates
import Verif.Dates.Logs
import Verif.Dates.Logins
import Verif.Utf.More
import Verif.UsnDebug
import Verif.ChangeLogDebug
import Verif.RecyclerDebug
import Verif.RecycleBinDebug
import Verif.FseventsDebug
import Verif.GzipDebug
import Verif.FirefoxDebug
import Verif.FirefoxBlocks
import Verif.SystemdDebug
import Verif.SystemdArrays
import Verif.SystemdEntries
import Verif.SystemdFile
import Verif.TimesyncDebug
import Verif.UuidtextDebug
