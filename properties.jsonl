{"id": "C01", "title": "Case folding is the advertised equivalence", "statement": "For each CASEMAPPING (ascii, rfc1459, rfc1459-strict) folding a nick or channel name is idempotent and length preserving, and two names fold to the same string exactly when they agree position by position up to the letter pairs of that mapping (A-Z/a-z, plus {}| ~ vs []\\ ^ for rfc1459, without ~/^ for strict).", "quantifier": "every pair of byte strings, every supported case mapping", "why_tests_cant": "names are unbounded byte strings; tests only sample spellings", "anchors": ["xirc/casemapping.go: casemapASCII, casemapRFC1459, casemapRFC1459Strict, ParseCaseMapping"]}
{"id": "C02", "title": "Case-insensitive maps behave like maps keyed by folded name", "statement": "After any history of insertions and deletions, looking up any spelling of a name returns the value most recently stored under any equivalent spelling (and nothing if it was deleted since); iteration yields each live name once, in the spelling that created the entry; changing the case mapping keeps every entry as long as no two live names become equal under the new mapping.", "quantifier": "every history of Set/Del/SetCaseMapping and every lookup key", "why_tests_cant": "the state space is all histories over all spellings", "anchors": ["xirc/casemapping.go: CaseMappingMap"]}
{"id": "C03", "title": "Channel membership prefixes are a ranked set", "statement": "After any sequence of grants and revocations of membership modes, the prefix list shown for a member is duplicate free, ordered by the server's advertised rank, contains exactly the modes granted and not revoked since, and its first entry is the highest rank held.", "quantifier": "every advertised membership list and every sequence of +mode/-mode", "why_tests_cant": "sequences are unbounded and order matters", "anchors": ["xirc/xirc.go: MembershipSet.Add, MembershipSet.Remove", "irc.go: formatMemberPrefix", "upstream.go: parseMembershipPrefix"]}
{"id": "C04", "title": "User mode strings are applied as a set", "statement": "Applying any well formed user MODE string leaves exactly the set of modes obtained by processing its letters left to right under the current sign, without duplicates; a letter before any sign is rejected.", "quantifier": "every current mode set and every mode string", "why_tests_cant": "unbounded strings with sign context", "anchors": ["irc.go: userModes"]}
{"id": "C05", "title": "Channel MODE arguments are consumed by the right letters", "statement": "When a channel MODE line is applied, every letter that takes an argument (list modes, always-argument modes, set-only-argument modes when set, and membership modes) consumes exactly the next argument and no other letter consumes one, so that each argument is attributed to the letter the server meant; modes never advertised are ignored without consuming an argument. A client that asks for the modes of a channel is told exactly the modes kept for it, each once and each with its own value, so that whoever reads the reply by the server's table ends up with the same modes (for modes named by ASCII characters).", "quantifier": "every mode string, argument list, advertised mode table and channel state; every history of MODE lines and every iteration order for the reply", "why_tests_cant": "argument alignment depends on the whole prefix of the line", "anchors": ["irc.go: applyChannelModes", "irc.go: channelModes.Format"]}
{"id": "C06", "title": "Reconnection delays back off, are bounded and reset", "statement": "The first reconnect attempt after a reset is immediate; every later delay lies in [min, max+jitter); the delays without jitter never decrease until reset and reach the cap; for positive min and max nothing overflows or becomes negative.", "quantifier": "every number of failures and every jitter outcome", "why_tests_cant": "unbounded retry histories with randomness", "anchors": ["rate.go: backoffer.Reset, backoffer.Next", "server.go: retryConnectMinDelay, retryConnectMaxDelay"]}
{"id": "C07", "title": "Automatic JOINs cover every channel with its own key", "statement": "When (re)joining a set of channels, the generated JOIN lines together name every channel exactly once, each channel that has a key is accompanied by that key in the same position, keyed channels come first, and every line fits the IRC length limit unless a single channel alone exceeds it.", "quantifier": "every finite set of channel/key pairs", "why_tests_cant": "line splitting depends on the cumulative length of the whole list", "anchors": ["xirc/genmsg.go: GenerateJoin, joinSorter"]}
{"id": "C08", "title": "Long target lists are split losslessly", "statement": "MONITOR, NAMES, and ISUPPORT lists that need several lines are split so that concatenating the lines gives back exactly the original list in order, and every line respects its length or token limit.", "quantifier": "every list of targets, members or tokens", "why_tests_cant": "splitting boundary conditions over unbounded lists", "anchors": ["xirc/genmsg.go: GenerateMonitor, GenerateNamesReply, GenerateIsupport"]}
{"id": "C09", "title": "SASL payloads survive chunking", "statement": "Any SASL response sent by the bouncer as a sequence of AUTHENTICATE lines is reassembled by the bouncer's own AUTHENTICATE parser to the same bytes, each line carries at most 400 bytes, the sequence ends with a line shorter than 400 bytes (or '+'), and payloads beyond the accepted size are refused.", "quantifier": "every byte string payload", "why_tests_cant": "boundary at multiples of 400 and unbounded payloads", "anchors": ["xirc/genmsg.go: GenerateSASL", "downstream.go: handleAuthenticate"]}
{"id": "C10", "title": "WHOX replies round-trip", "statement": "For every subset of WHOX fields and every reply content, parsing the reply the bouncer generates with the same field set yields the same field values, with fields in canonical order regardless of the order requested.", "quantifier": "every field set and every field value", "why_tests_cant": "2^13 field sets times unbounded strings", "anchors": ["xirc/whox.go: GenerateWHOXReply, ParseWHOXReply, ParseWHOXOptions"]}
{"id": "C11", "title": "Message identifiers round-trip and are typed", "statement": "Every internal message ID minted by a message store parses back to the same network, target and position; an ID minted by one kind of store is rejected by another, and IDs of two different messages differ.", "quantifier": "every network id, target string and position", "why_tests_cant": "varint/base64 encodings over unbounded values", "anchors": ["msgstore/msgstore.go: formatMsgID, ParseMsgID", "msgstore/memory.go: formatMemoryMsgID", "msgstore/fs.go: formatFSMsgID", "msgstore/db.go: formatDBMsgID"]}
{"id": "C12", "title": "The in-memory store is a window over the log", "statement": "After any history of appends to any targets, asking the in-memory message store for the latest messages after a previously returned message ID gives exactly the messages appended after that one (at most limit and at most the window size, oldest first), and targets never interfere with one another.", "quantifier": "every history of Append/LastMsgID/LoadLatestID over all targets", "why_tests_cant": "unbounded histories with ring wrap-around", "anchors": ["msgstore/memory.go"]}
{"id": "C13", "title": "Log-file history queries return the right window", "statement": "Loading messages before/after a time, or after a message ID, from the log-file store returns exactly the most recent (resp. earliest) messages within the bounds, in chronological order, never more than the limit and never one outside the bounds.", "quantifier": "every log content, every bound, every limit", "why_tests_cant": "windowing over several day files and unbounded logs", "anchors": ["msgstore/fs.go: parseMessagesBefore, parseMessagesAfter, getBeforeTime, getAfterTime, LoadLatestID"]}
{"id": "C14", "title": "Log files stay inside the log directory", "statement": "For every user name, network name and target name, the log path computed by the bouncer stays inside the configured root and always has the shape root/user/network/target/date.log; distinct names map to distinct directories up to the documented replacement characters.", "quantifier": "every user/network/target name", "why_tests_cant": "names are attacker chosen unbounded strings", "anchors": ["msgstore/fs.go: EscapeFilename, logPath"]}
{"id": "C15", "title": "Logged lines read back as the message that was logged", "statement": "Every message kind written to a ZNC format log line is read back, for the same target, as a message with the same command, sender, text and time (to the second).", "quantifier": "every sender, target and text", "why_tests_cant": "text is unbounded and the grammar is ambiguous in places", "anchors": ["msgstore/znclog/writer.go: formatMessage", "msgstore/znclog/reader.go: UnmarshalLine"]}
{"id": "C16", "title": "Read markers only move forward", "statement": "For every sequence of MARKREAD commands from any clients, the stored read timestamp of a target never decreases, never exceeds the server clock, the reply always reports the stored value, and whenever it changes every client of that network is told the new value.", "quantifier": "every sequence of commands, clients and clock values", "why_tests_cant": "histories across several clients", "anchors": ["downstream.go: MARKREAD handling", "database: GetReadReceipt, StoreReadReceipt"]}
{"id": "C17", "title": "Serialized upstream queries are answered in order and at most one is in flight", "statement": "For LIST/WHO/WHOIS style queries, commands issued by clients are sent upstream in the order they were queued, at most one of each kind is outstanding at any time, each end-of-reply completes exactly the oldest one, every queued command of a client is answered or aborted exactly once on disconnection, and cancellation by one client does not lose another client's command.", "quantifier": "every interleaving of enqueue, completion, timeout, client disconnect and upstream disconnect", "why_tests_cant": "interleavings of several clients and an upstream server", "anchors": ["upstream.go: enqueueCommand, dequeueCommand, sendNextPendingCommand, abortPendingCommands, cancelPendingCommandsByDownstreamID"]}
{"id": "C18", "title": "Labelled replies go to the client that asked", "statement": "A label attached to a message sent on behalf of a client decodes to that client's identity and no two messages sent on one upstream connection share a label; a reply carrying the label is routed only to that client, and labels not minted by the bouncer are routed to nobody in particular.", "quantifier": "every sequence of labelled sends and every incoming label", "why_tests_cant": "label space and histories are unbounded", "anchors": ["upstream.go: SendMessageLabeled, handleMessage (label handling)"]}
{"id": "C19", "title": "Messages reach exactly the right clients", "statement": "An upstream message is forwarded to every connected client of that network and to no client of another network; a message sent by a client is echoed to every other client of that network exactly once, and to the sender exactly once if and only if it enabled echo-message.", "quantifier": "every set of clients, networks and every message sequence", "why_tests_cant": "arbitrary populations of clients and networks", "anchors": ["upstream.go: produce", "downstream.go: PRIVMSG handling", "user.go: forEachDownstream"]}
{"id": "C20", "title": "What is logged and what is not", "statement": "Messages exchanged with the services bot (NickServ), which may carry credentials, and messages to server masks are never written to the message store; tag-only messages are written only if they carry a reaction; every other message from a user or to a target is logged under the right target (the peer for private messages, the channel without status prefix for channel messages).", "quantifier": "every message, prefix, target and connection state", "why_tests_cant": "case analysis over unbounded names and texts", "anchors": ["upstream.go: appendLog, handleMessage"]}
{"id": "C21", "title": "A reconnecting client misses nothing and sees nothing twice", "statement": "With a store that keeps messages, for every history of messages, acknowledgements, disconnections, reconnections, restarts and changes of the settings of the network, the messages a named client receives live plus the backlog replayed on reconnection contain every message logged for a target after that client was first seen, in order, and no message it had acknowledged is replayed.", "quantifier": "every interleaving of messages, acks, disconnects, reconnects, restarts, crashes and changes of settings for any number of clients", "why_tests_cant": "unbounded histories and interleavings", "anchors": ["user.go: deliveredStore, storeClientDeliveryReceipts, updateNetwork", "downstream.go: sendTargetBacklog, advanceMessageWithID, ackMsgID, welcome"]}
{"id": "C22", "title": "Detaching hides a channel and attaching restores it", "statement": "Detaching then attaching a channel restores its attached state, both are idempotent, a detached channel's messages are not relayed to clients except those its relay policy asks for, and a message that triggers reattachment is delivered.", "quantifier": "every channel configuration, message sequence and policy", "why_tests_cant": "policies times message histories", "anchors": ["user.go: detach, attach, detachedMessageNeedsRelay", "upstream.go: handleDetachedMessage, updateAutoDetach"]}
{"id": "C23", "title": "Auto-away follows the presence of clients", "statement": "With auto-away enabled on a network that is connected, after every event the server considers the user away exactly when no client attached to that network is present (none is attached, or every attached client is itself away); with it disabled the bouncer never sends AWAY by itself.", "quantifier": "every sequence of client connections, disconnections and AWAY commands", "why_tests_cant": "interleavings of client sessions", "anchors": ["upstream.go: updateAway", "user.go: event loop"]}
{"id": "C24", "title": "MONITOR lists are bounded, merged correctly and answered", "statement": "A client's MONITOR list never exceeds the bouncer's limit of 1000 nicks; the set of nicks the bouncer monitors upstream is exactly the union of its clients' lists for that network plus its own desired nick when it does not have it, as far as the upstream limit allows, for every interleaving of client commands and server reports; the last thing a client was told about a nick of its list is what the server last said about it, each report goes to exactly the clients that monitor the nick, and a client is told of every nick that could not be added.", "quantifier": "every sequence of MONITOR commands by any number of clients", "why_tests_cant": "unbounded histories and several clients", "anchors": ["downstream.go: MONITOR handling", "upstream.go: updateMonitor"]}
{"id": "C25", "title": "Capability negotiation is consistent", "statement": "At every moment the capabilities enabled for a client are among those advertised to it; a CAP REQ is applied entirely or not at all; capabilities withdrawn with CAP DEL are disabled; cap-notify cannot be disabled by a 302 client. A 302 client that follows CAP LS, NEW and DEL knows exactly which capabilities are offered, with their values. Once a client is registered, the capabilities that need the support of all upstream servers are offered exactly when all support them.", "quantifier": "every sequence of CAP commands and upstream capability changes", "why_tests_cant": "sequences and interleavings with upstream events", "anchors": ["downstream.go: handleCap, setSupportedCap, unsetSupportedCap, updateSupportedCaps", "xirc/caps.go: CapRegistry"]}
{"id": "C26", "title": "Clients never receive what they did not negotiate", "statement": "No message sent to a client carries a message tag whose capability that client has not enabled, nor a command that requires a capability it has not enabled; the message is otherwise delivered unchanged and messages shared between clients are not altered for the others.", "quantifier": "every message and every capability set", "why_tests_cant": "product of capability sets and message contents", "anchors": ["downstream.go: SendMessage, SendBatch"]}
{"id": "C27", "title": "Registration requires authentication", "statement": "A client connection completes registration as user U only after the configured authenticator accepted credentials for U (or for an administrator impersonating U), whatever sequence of messages it sends.", "quantifier": "every sequence of client messages before registration and every authenticator behaviour", "why_tests_cant": "adversarial unbounded message sequences", "anchors": ["downstream.go: handleMessageUnregistered, register, runUntilRegistered, handleAuthenticate"]}
{"id": "C28", "title": "Impersonation is reserved to administrators", "statement": "A client that authenticates as A with an authorization identity U different from A is registered as U only if A is an enabled administrator.", "quantifier": "every sequence of SASL exchanges", "why_tests_cant": "adversarial sequences", "anchors": ["downstream.go: handleMessageUnregistered (AUTHENTICATE)"]}
{"id": "C29", "title": "User name suffixes are parsed unambiguously", "statement": "A login name user/network@client (in either order of suffixes) is split into user, network and client such that re-assembling the parts gives back the login name, and user names without / and @ are returned unchanged.", "quantifier": "every login string", "why_tests_cant": "unbounded strings with two separators in either order", "anchors": ["downstream.go: unmarshalUsername"]}
{"id": "C30", "title": "Network names identify networks", "statement": "After any history of network creations, updates and deletions by a user, no two of their networks have the same name, and looking a network up by its name finds that network.", "quantifier": "every history of create/update/delete", "why_tests_cant": "unbounded histories", "anchors": ["user.go: checkNetwork, createNetwork, updateNetwork, getNetwork"]}
{"id": "C31", "title": "Network limits are enforced", "statement": "With a limit in force, no history of creations and updates (without the administrators' ignore-limit flag) makes the number of enabled networks of a user exceed the limit, and a refused request changes nothing.", "quantifier": "every history and every limit", "why_tests_cant": "unbounded histories", "anchors": ["user.go: canEnableNewNetwork, createNetwork, updateNetwork", "service.go: handleServiceNetworkCreate, handleServiceNetworkUpdate"]}
{"id": "C32", "title": "Only administrators connect the bouncer to local sockets", "statement": "A user who is not an administrator can never create or change a network so that its address designates a unix socket, and addresses with an unsupported scheme, credentials, path or fragment are rejected.", "quantifier": "every address string and every history", "why_tests_cant": "address grammar times privilege states", "anchors": ["user.go: checkNetwork", "downstream.go: networkAddrFromAttrs, updateNetworkAttrs", "service.go: networkFlagSet.update"]}
{"id": "C33", "title": "Connection output is a FIFO prefix", "statement": "Whatever the schedule, the messages written to a connection's socket are a prefix of the messages queued, in queueing order, each at most once; after a graceful shutdown without error all of them are written; after close nothing more is written and senders never block forever.", "quantifier": "every interleaving of senders, the writer goroutine, errors, shutdown and close", "why_tests_cant": "goroutine schedules", "anchors": ["conn.go: newConn, SendMessage, Shutdown, Close"]}
{"id": "C34", "title": "Stored timestamps sort chronologically", "statement": "For every pair of instants representable in the database (years 0-9999), comparing their stored text lexicographically gives the same result as comparing the instants truncated to milliseconds, and reading the text back gives the truncated instant.", "quantifier": "every pair of instants", "why_tests_cant": "all dates", "anchors": ["database/sqlite.go: sqliteTime, sqliteTimeLayout, ListMessages"]}
{"id": "C35", "title": "Database history queries return the right window", "statement": "For every stored history and every combination of bounds, sender, events flag, limit and direction, the database store returns exactly the matching messages of that network and target: the earliest ones (or the latest ones) up to the limit, in chronological order.", "quantifier": "every table content and every option combination", "why_tests_cant": "unbounded tables and option combinations", "anchors": ["database/sqlite.go: ListMessages, ListMessageLastPerTarget, GetMessageLastID, StoreMessages", "msgstore/db.go"]}
{"id": "C36", "title": "Deleting a user or network leaves no dangling or collateral rows", "statement": "After deleting a user or a network, no row of any table refers to it, no row refers to a row that no longer exists, and every row belonging to other users and networks is untouched.", "quantifier": "every database content satisfying the schema constraints", "why_tests_cant": "arbitrary table contents", "anchors": ["database/sqlite.go: DeleteUser, DeleteNetwork", "database/sqlite_schema.sql"]}
{"id": "C37", "title": "Saved network settings survive a restart", "statement": "Storing a network record and listing it again yields the same settings (with credentials of the inactive SASL mechanism dropped), and storing one network does not affect another.", "quantifier": "every network record", "why_tests_cant": "all record contents including separators in connect commands", "anchors": ["database/sqlite.go: StoreNetwork, ListNetworks"]}
{"id": "C38", "title": "Quoted service command words arrive intact", "statement": "For every list of words, the command line produced by quoting each word is split by the service into exactly these words, so that an argument can never be mistaken for another one; unterminated quotes and escapes are rejected.", "quantifier": "every list of words", "why_tests_cant": "unbounded strings with quoting and escapes", "anchors": ["service.go: splitWords", "cmd/sojuctl/main.go: quoteWords"]}
{"id": "C39", "title": "Service command lookup is deterministic and gated", "statement": "Resolving a service command line gives the same result whatever the iteration order of the command table; an abbreviation resolves only if it is unambiguous; no command reserved to administrators runs for a non-administrator and no user-scoped command runs without a user.", "quantifier": "every word list, every table iteration order, every context", "why_tests_cant": "random map iteration order and unbounded inputs", "anchors": ["service.go: serviceCommandSet.Get, handleServiceCommand, serviceCommands"]}
{"id": "C40", "title": "Account commands respect authority", "statement": "A non-administrator can neither change nor delete another account, nor change their own admin flag, enabled flag or network limit, whatever arguments they give; deletion requires the matching confirmation token.", "quantifier": "every argument list and context", "why_tests_cant": "argument combinations", "anchors": ["service.go: handleUserUpdate, handleUserDelete, handleUserRun, handleUserCreate"]}
{"id": "C41", "title": "Formatting is stripped without losing text", "statement": "The search text stored for a message contains no IRC formatting control, is a subsequence of the message, equals it when it has no formatting control, and drops nothing but formatting controls and their color arguments.", "quantifier": "every byte string", "why_tests_cant": "unbounded strings with look-ahead", "anchors": ["database/utils.go: stripANSI, startsHexColor"]}
{"id": "C42", "title": "Search text cannot inject query syntax", "statement": "Whatever text a client searches for, the full-text query handed to the database is a sequence of quoted strings whose unquoted contents are exactly the letter/digit tokens of the text.", "quantifier": "every search text", "why_tests_cant": "injection over unbounded strings", "anchors": ["database/sqlite.go: quoteFTSQuery"]}
{"id": "C43", "title": "Uploaded files stay in the upload directory", "statement": "Whatever path a client requests, the file served lies below the upload directory; whatever file name and (well formed) user name an upload uses, the file is created directly inside that user's directory and never replaces an existing file.", "quantifier": "every request path, file name and directory content", "why_tests_cant": "adversarial paths", "anchors": ["fileupload/fileupload.go: fetch, store", "fileupload/fs.go: load, store"]}
{"id": "C44", "title": "Uploads require authentication and respect the size limit", "statement": "No file is stored for a request unless the authenticator accepted its credentials; the file is stored for the authenticated user; requests above the size limit are refused and leave nothing behind.", "quantifier": "every request", "why_tests_cant": "request contents times authenticator behaviour", "anchors": ["fileupload/fileupload.go: Handler.store", "fileupload/fs.go: store"]}
{"id": "C45", "title": "Ident answers identify the owner of the connection", "statement": "For every history of connection registrations and removals, an ident query from host H about a port pair is answered with the ident string of the live connection to H with these ports, only to H, and with NO-USER if there is none.", "quantifier": "every history and every query", "why_tests_cant": "histories of concurrent connections", "anchors": ["identd/identd.go"]}
{"id": "C46", "title": "Per-user addresses are distinct and inside the range", "statement": "With per-user source addresses configured, two different users never get the same local address, the address is always inside the configured network, and the network's own base address is never used.", "quantifier": "every user id and prefix", "why_tests_cant": "all ids and prefixes", "anchors": ["user.go: localTCPAddr"]}
{"id": "C47", "title": "Configuration is validated", "statement": "Every accepted configuration has known drivers with the required number of parameters, valid origin patterns, at most one IPv4 and one IPv6 per-user range and a non-negative inactivity delay; unspecified settings get the documented defaults; the addresses whose PROXY header is trusted are those of the listed networks, where localhost stands for 127.0.0.0/8 and ::1.", "quantifier": "every parsed configuration", "why_tests_cant": "combinations of directives", "anchors": ["config/config.go: Load, parseDriverSource"]}
{"id": "C48", "title": "ISUPPORT values are encoded reversibly", "statement": "The ISUPPORT tokens sent to a client decode to the values intended for every value, and tokens negotiated with the upstream network are tracked so that a negated token restores the default.", "quantifier": "every token value and sequence of RPL_ISUPPORT", "why_tests_cant": "sequences of tokens", "anchors": ["xirc/genmsg.go: GenerateIsupport", "upstream.go: RPL_ISUPPORT handling"]}
{"id": "C49", "title": "CTCP and status prefixes are recognised exactly", "statement": "A message is treated as CTCP exactly when it is delimited by 0x01 bytes as the protocol says, and its command and parameters are split without loss; status prefixes are stripped from a target exactly when advertised.", "quantifier": "every text and target", "why_tests_cant": "unbounded strings", "anchors": ["xirc/xirc.go: ParseCTCPMessage, ParseChannelStatus"]}
{"id": "C50", "title": "Highlights are whole-word mentions outside URLs", "statement": "A message highlights the user exactly when it contains an occurrence of their nick delimited by word boundaries in the original text and not part of a URL.", "quantifier": "every text and nick", "why_tests_cant": "overlapping occurrences and context over unbounded text", "anchors": ["irc.go: isHighlight, isWordBoundary, isURIPrefix"]}
{"id": "C51", "title": "Saved credentials come from the user", "statement": "Credentials are saved for automatic login only from what the user sent: a message to the services bot that carries both an account and a password, or a login or account registration that the server accepted. They are never replaced by empty ones, and no order of client and server messages crashes the bouncer on the way.", "quantifier": "every message to the services bot, every history of login attempts and server answers", "why_tests_cant": "grammar of unbounded texts", "anchors": ["downstream.go: parseNickServCredentials, handleMessageRegistered (AUTHENTICATE, REGISTER)", "user.go: autoSaveSASLPlain", "upstream.go: handleMessage (SASL numerics, REGISTER)"]}
{"id": "C52", "title": "Network attributes round-trip", "statement": "Reading the attributes the bouncer advertises for a network and sending them back unchanged leaves the network's address unchanged.", "quantifier": "every network address", "why_tests_cant": "address grammar", "anchors": ["downstream.go: fillNetworkAddrAttrs, networkAddrFromAttrs"]}
{"id": "C53", "title": "History requests are bounded", "statement": "Every CHATHISTORY reply contains at most the requested number of messages, never more than the server limit, and all within the requested bounds; malformed bounds and limits are refused without touching the store.", "quantifier": "every request", "why_tests_cant": "all parameter combinations", "anchors": ["downstream.go: CHATHISTORY handling", "irc.go: parseChatHistoryBound"]}
{"id": "C54", "title": "One event loop per user", "statement": "Whatever connections, account creations, deletions and crashes happen concurrently, at most one event loop runs for a user name, and a loop that ends is forgotten so that the account can be used again after a restart.", "quantifier": "every interleaving", "why_tests_cant": "goroutine schedules", "anchors": ["server.go: createUser, addUserLocked, getOrCreateUser, Shutdown"]}
{"id": "C55", "title": "Administration commands do not block users forever", "statement": "An administrator updating another account always gets an answer and the event loops of both users keep running.", "quantifier": "every interleaving of administrative commands", "why_tests_cant": "goroutine schedules", "anchors": ["service.go: handleUserUpdate, handleUserRun", "user.go: event loop"]}
{"id": "C56", "title": "Cached user information is consistent", "statement": "The cached WHO information of a user is what the server last reported for that nick, follows nick changes, and is dropped when the user is no longer visible.", "quantifier": "every sequence of server messages", "why_tests_cant": "unbounded histories", "anchors": ["upstream.go: cacheUserInfo, shouldCacheUserInfo, getCachedWHO"]}
{"id": "C57", "title": "Push subscriptions are bounded and unique", "statement": "A user has at most the permitted number of push subscriptions per network and at most one per endpoint, and expired ones are removed.", "quantifier": "every sequence of WEBPUSH commands", "why_tests_cant": "unbounded histories", "anchors": ["downstream.go: WEBPUSH handling", "user.go: webpush handling"]}
{"id": "C58", "title": "Saved channels mirror the user's joins and parts", "statement": "For every sequence of successful joins, parts and kicks, the list of channels rejoined on reconnection is exactly the set the user joined and did not part (being kicked does not remove a channel), with the last key used.", "quantifier": "every sequence of JOIN/PART/KICK", "why_tests_cant": "unbounded histories", "anchors": ["downstream.go: JOIN, PART handling", "upstream.go: JOIN, PART, KICK handling"]}
{"id": "C59", "title": "Failed updates leave settings unchanged", "statement": "A service command that reports an error leaves the in-memory and stored settings as they were.", "quantifier": "every command and error", "why_tests_cant": "combinations of flags and failures", "anchors": ["service.go: channelFlagSet.update, networkFlagSet.update, handleServiceChannelUpdate, handleServiceNetworkUpdate"]}
{"id": "C60", "title": "Inactive-account disabling is safe", "statement": "An account is disabled for inactivity only if its last client activity (or creation) is older than the configured delay and it has no connected client, and never when the delay is zero.", "quantifier": "every set of users and activity times", "why_tests_cant": "combinations of users and clocks", "anchors": ["server.go: disableInactiveUsers", "database/sqlite.go: ListInactiveUsernames"]}
{"id": "C61", "title": "Auto-detach waits for inactivity", "statement": "A channel with a detach-after setting is detached by the bouncer on its own only when that much time has passed without activity in it (activity being the user speaking, or a message selected by the detach-on setting), whatever joins, parts, kicks, reconnections and timer expirations happen in between.", "quantifier": "every sequence of messages, joins, parts, kicks, disconnections, clock ticks and event-loop schedules", "why_tests_cant": "depends on the interleaving of timers with the event queue", "anchors": ["upstream.go: updateAutoDetach, updateChannelAutoDetach, handleMessage (JOIN, PART, KICK)", "user.go: detach, eventChannelDetach"]}
{"id": "C62", "title": "A disabled account is inert", "statement": "While an account is disabled, none of its networks is connected and a client that logs in to it is turned away; whatever that client sends, the bouncer and the account keep working.", "quantifier": "every sequence of logins, messages, updates and deletions", "why_tests_cant": "depends on the interleaving of logins, client messages and administrative changes", "anchors": ["user.go: user.run, updateUser, stop", "downstream.go: handleMessage", "server.go: addUserLocked, disableInactiveUsers"]}
{"id": "C63", "title": "Saved channel settings survive a restart", "statement": "Storing a channel record and listing it again yields the same settings, the auto-detach delay being rounded up to whole seconds; storing or deleting one channel does not affect another.", "quantifier": "every channel record and table content", "why_tests_cant": "all record contents and table contents", "anchors": ["database/sqlite.go: StoreChannel, ListChannels, DeleteChannel"]}
{"id": "C64", "title": "Searches return what was asked for", "statement": "A SEARCH reply contains exactly the latest text messages of the requested conversation that meet every attribute of the request, never more than 100; a search with a malformed instant or number, or without a conversation, is refused without touching the store, and the order in which the attributes are read does not matter.", "quantifier": "every attribute list and message history", "why_tests_cant": "combinations of attributes times histories", "anchors": ["downstream.go: SEARCH handling", "msgstore/db.go: Search"]}
{"id": "C65", "title": "The event loop survives whatever is said about users", "statement": "Whatever messages an upstream server sends about users (any source, any nick, any order) and whatever mask a client asks WHO about, the bouncer processes the message without crashing the user's event loop.", "quantifier": "all sequences of upstream messages concerning users, from any server, and all WHO masks from any client", "why_tests_cant": "A crash needs one particular combination of an unusual source or nick with a particular cache state; the set of histories is infinite.", "anchors": ["upstream.go: cacheUserInfo, handleMessage", "downstream.go: handleMessageRegistered (WHO)"]}
{"id": "C66", "title": "Push messages go only to public HTTPS endpoints", "statement": "A client can make the bouncer send push messages only to an HTTPS endpoint whose host does not resolve to an address internal to the bouncer's machine or network; every other registration is refused with an error.", "quantifier": "all endpoint strings and all answers of the resolver", "why_tests_cant": "The set of endpoint strings and of internal address ranges is too large to enumerate.", "anchors": ["downstream.go: sanityCheckWebPushEndpoint, handleMessageRegistered (WEBPUSH REGISTER)"]}
{"id": "C67", "title": "Changing the password or disabling the account cuts clients off", "statement": "Once the password of an account has been changed, no client connection that was opened with an older password can act on the account; once the account has been disabled, no client connection can.", "quantifier": "all histories of logins (successful or failing), commands, disconnections, account updates, network changes and database failures, in any interleaving of the client, network and event loop goroutines", "why_tests_cant": "A connection that slips through needs a particular interleaving of its login with the update, or a particular failure of the login; tests try a few.", "anchors": ["user.go: run (eventUserUpdate, eventDownstreamConnected), updateUser", "downstream.go: welcome, loadNetwork", "server.go: Handle"]}
{"id": "C68", "title": "A deletion deletes one account", "statement": "Deleting an account removes the account the request was made for and no other: an account whose event loop runs is in the database, however deletions, creations under the same name, crashes and restarts interleave.", "quantifier": "all interleavings of account creations, deletions (repeated or concurrent), loop ends and restarts, with each supported database", "why_tests_cant": "The harmful interleavings need two deletions in flight and a creation between them; a test exercises one schedule.", "anchors": ["service.go: handleUserDelete", "server.go: createUser, addUserLocked", "database/sqlite_schema.sql", "database/postgres_schema.sql"]}
{"id": "C69", "title": "The bouncer registers with a server as asked", "statement": "When it registers with a server, the bouncer requests only capabilities the server offers and, once no negotiation is under way, both sides agree on the enabled ones; it logs in with the credentials of the network, if the server accepts the mechanism, and only then; it ends the negotiation after the login, or without one if none is possible, and never before the server has listed its capabilities; it asks for the nick of the user, and for a longer one each time the nick is in use.", "quantifier": "all sequences of messages of the server before and after registration, and all interleavings of the messages in both directions", "why_tests_cant": "The server chooses the order of its messages and may change its offer at any time; tests replay a few negotiations with one server.", "anchors": ["upstream.go: register, handleMessage (CAP, AUTHENTICATE, 90x, 001, 433), handleSupportedCaps, updateCaps, supportsSASL, requestSASL, handleCapAck"]}
{"id": "C70", "title": "A client stays with its network", "statement": "A client that logs in for a network gets it, and keeps it for as long as it is connected: however the settings of this network, of other networks and of the account are changed meanwhile, what it sends concerns the network it chose, with its current settings. Changing a network cuts off nobody; deleting a network cuts off its clients and no others.", "quantifier": "all histories of logins, disconnections, changes of networks and of the account, failures of the database, and steps of the goroutines of the networks, in any interleaving", "why_tests_cant": "A network is replaced by a new object each time it is changed, so that a client left with an old one is only noticed in some order of the events.", "anchors": ["user.go: updateNetwork, removeNetwork, addNetwork, deleteNetwork, updateUser, run", "downstream.go: loadNetwork, welcome"]}
{"id": "C71", "title": "Only allowed web pages may use the HTTP endpoint", "statement": "A web page may upload and read files only if it is served by the host of the bouncer or by a host that one of the configured patterns stands for; the requests of any other page have no effect, get no content, and the browser is not told that the page may read the answer.", "quantifier": "all configurations accepted, and all requests: origins, hosts, methods, paths and credentials", "why_tests_cant": "The check goes through a URL parser and a pattern matcher; tests try a few origins, and a single origin that slips through is a hole.", "anchors": ["fileupload/fileupload.go: Handler.setCORS, checkOrigin, ServeHTTP"]}
{"id": "C72", "title": "An uploaded file is served back unchanged", "statement": "If an upload is answered with success, then a request for the location given in the answer, at any later time, gets exactly the uploaded data, under the name the client gave to the file, completed by an extension only if it had none.", "quantifier": "all uploads and all later requests of all users", "why_tests_cant": "It depends on every later request leaving the file alone, and on file names and user names surviving escaping, parsing and cleaning.", "anchors": ["fileupload/fileupload.go: Handler.fetch, Handler.store", "fileupload/fs.go: fileuploadFS.load, fileuploadFS.store"]}
{"id": "C73", "title": "Uploaded files cannot run scripts in a browser", "statement": "Every answer of the upload handler forbids scripts, and a file whose type may contain scripts is never shown in the browser but offered for saving.", "quantifier": "all requests, all files and all detected types", "why_tests_cant": "It must hold for each path through the handler and for any type a file can be found to have.", "anchors": ["fileupload/fileupload.go: Handler.ServeHTTP, Handler.fetch, inlineMIMETypes"]}
{"id": "C74", "title": "Only trusted proxies can name the address of a client", "statement": "The address a client is known by is that of its connection, whatever headers it sends, unless the connection comes from an address in the configured networks of proxies; behind such a proxy it is the one the proxy names.", "quantifier": "all configurations, peers, headers of the PROXY protocol and of HTTP", "why_tests_cant": "A single combination of headers and addresses that is trusted by mistake lets anyone forge the address that is logged and shown.", "anchors": ["server.go: ServeHTTP, parseForwarded", "cmd/soju/main.go: proxyProtoListener", "config/config.go: IPSet.Contains"]}
{"id": "C75", "title": "A client sees its nick and channels as if it were connected directly", "statement": "What the messages sent to a client say about its own nick and, for every channel that is not detached, about being in it, its members and its topic is what a client connected directly to the server in place of the bouncer would know.", "quantifier": "all casemappings and memberships, all histories of connections, of messages of the server, of clients coming and going and of channels being attached and detached, and all channels", "why_tests_cant": "A client that misses one JOIN, PART, KICK, QUIT or NICK, or gets one too many, is wrong about a channel until it reconnects; which one goes missing depends on how logins, reconnections and detached channels interleave with the traffic.", "anchors": ["upstream.go: handleMessage (NICK, JOIN, PART, KICK, QUIT, TOPIC, RPL_TOPIC, RPL_NAMREPLY, RPL_ENDOFNAMES), produce, forwardMessage", "downstream.go: welcome, forwardChannel, sendNames, sendTopic, updateNick", "user.go: network.attach, network.detach"]}
{"id": "C76", "title": "A client that asked for notifications knows the networks of its user", "statement": "A client that enabled soju.im/bouncer-networks-notify before registering knows at any time, from the BOUNCER NETWORK messages sent to it, which networks there are and the attributes each of them has; a client that did not is sent such messages only when it asks for the list.", "quantifier": "all users, networks and addresses, all histories of networks being created, changed, removed, connecting, failing and disconnecting, and of clients coming and going, and all attributes", "why_tests_cant": "Attributes change in a dozen places, some of them events of goroutines of networks that have been replaced in the meantime; one that is not announced leaves the client wrong until it reconnects.", "anchors": ["user.go: notifyBouncerNetworkState, createNetwork, updateNetwork, deleteNetwork, handleUpstreamDisconnected, run", "downstream.go: getNetworkAttrs, fillNetworkAddrAttrs, welcome, BOUNCER LISTNETWORKS"]}
{"id": "C77", "title": "Upgrading the database keeps its data", "statement": "Opening a database of an earlier version upgrades it to the current one in a single step: every user, network, channel, receipt, subscription and message is afterwards what it was, new settings have the values that leave the behaviour as it was, and the tables are those of a new database. If the upgrade fails, or is interrupted, or several processes attempt it at once, the database is the one before the upgrade or the one after a single upgrade. A database of a later version is refused and left alone.", "quantifier": "all versions, all contents of the database, all interleavings of processes that open it and all points at which they are interrupted, SQLite and PostgreSQL", "why_tests_cant": "A test upgrades one database, usually an empty one; what a migration does depends on the rows, on which version it starts from and on which constraints are enforced while it runs.", "anchors": ["database/sqlite.go: sqliteMigrations, upgrade", "database/postgres.go: postgresMigrations, upgrade", "database/sqlite_schema.sql", "database/postgres_schema.sql"]}
{"id": "C78", "title": "The bouncer talks to the server it was told to", "statement": "A connection to a network goes to the host of its address, over TLS unless the address itself asks for none. The server is accepted only if it proves to be that host: by a chain of certificates valid for the host, or, if the user has entered a fingerprint, by holding the key of the certificate with this fingerprint, however the fingerprint is written. The user's own certificate is presented only where they have set it up for logging in. With addresses for each user, the connection comes from the user's address.", "quantifier": "all addresses and settings of networks, all fingerprints, all servers and chains of certificates, all answers of the resolver", "why_tests_cant": "A test uses one server and one certificate; whether another one is refused depends on every chain somebody in between could present.", "anchors": ["upstream.go: connectToUpstream, dialTCP, resolveIPAddr", "service.go: networkFlagSet.update (certfp)", "user.go: localTCPAddr", "database/database.go: Network.URL"]}
{"id": "C79", "title": "Only the right credentials log in", "statement": "With passwords kept in the database, a login is accepted only if the password is the one last set for the account (by its owner, an administrator or its creation), and a login changes nothing but, perhaps, the way this password is hashed: it never undoes a change that is made at the same time. With a web server as authenticator, a login is accepted if and only if that server accepts exactly this name and this password. With an OAuth 2.0 server, a token logs in the user that the server says the token belongs to, and only while it says that the token is active; tokens and the bouncer's own credentials arrive there unaltered. With PAM, the name that PAM authenticated is the one that is logged in. Nobody becomes a user in any other way.", "quantifier": "all user names, passwords and tokens of any bytes; all hashes and costs; all answers of the web server, OAuth server and PAM modules; all interleavings of logins with changes of the account", "why_tests_cant": "Tests try a few passwords; whether another one, a name with a separator or a token with a reserved character passes for something else, or a login that runs next to a change undoes it, depends on all strings and schedules.", "anchors": ["auth/internal.go: internal.AuthPlain", "auth/http.go: httpAuth.AuthPlain", "auth/oauth2.go: oauth2.AuthOAuthBearer", "auth/pam.go: pamAuth.AuthPlain", "database/database.go: User.CheckPassword, User.SetPassword", "user.go: updateUser"]}
{"id": "C80", "title": "The bouncer gets the wanted nick back", "statement": "If the wanted nick is taken when the bouncer connects, the bouncer asks for it again as soon as the server says that it is free, or, if the server cannot say so, again and again at growing intervals. It never asks for another nick, never while it has the wanted one, and once the nick was given back it does not fight over it. The clients do not see the refusals of these attempts, but see those of their own. The attempts never stop the user's other work.", "quantifier": "all histories of connections, nick changes by the server, by clients and in the settings, refusals of any kind, ticks of the clock at any time, late or lost, and all case mappings", "why_tests_cant": "A test sees one refusal and one success; the attempts depend on every order of ticks, answers and changes of the nick.", "anchors": ["upstream.go: startRegainNickTimer, tryRegainNick, stopRegainNickTimer, handleMessage (NICK, ERR_NICKNAMEINUSE, RPL_MONOFFLINE, RPL_ENDOFMOTD)", "user.go: eventTryRegainNick, handleUpstreamDisconnected"]}
{"id": "C81", "title": "The history in a PostgreSQL database", "statement": "With a PostgreSQL database, a call that stores messages stores all of them or none, and it succeeds unless the network is gone, a time tag cannot be read or the database refuses. Every stored message gets a new, larger identifier. A query for history returns exactly the wanted messages of the conversation, up to the limit, from the asked side and in chronological order; the list of conversations gives each conversation once with the time of its latest message. Nothing is left of a deleted network. A client that comes back gets what was stored since it left, and every message relayed is stored.", "quantifier": "all sequences of calls (messages stored one by one or in batches, failures, networks added and deleted), all conversations, bounds, limits and filters, and all orders the database may choose among equal times", "why_tests_cant": "Tests need a server and store a handful of messages; the claim is about every history, failure and order of equal times.", "anchors": ["database/postgres.go: GetMessageLastID, StoreMessages, ListMessageLastPerTarget, ListMessages", "database/postgres_schema.sql: MessageTarget, Message", "msgstore/db.go"]}
{"id": "C82", "title": "The account data in a PostgreSQL database", "statement": "With a PostgreSQL database, the users, networks, channels, receipts and push subscriptions that are listed are exactly those that were stored and not deleted since, each with the settings stored last; a call succeeds exactly if the texts fit the columns, what it refers to exists and nothing collides; no identifier is given twice; deleting a user leaves nothing of this user and changes nothing for others. What a successful call stored is listed afterwards.", "quantifier": "all sequences of calls that store, update and delete records of any user, all contents, and any limits the columns have", "why_tests_cant": "Tests need a server and store a few records; the claim is about every history of calls, including failing ones.", "anchors": ["database/postgres.go: ListUsers, GetUser, ListInactiveUsernames, StoreUser, DeleteUser, ListNetworks, StoreNetwork, DeleteNetwork, ListChannels, StoreChannel, DeleteChannel, ListDeliveryReceipts, StoreClientDeliveryReceipts, GetReadReceipt, StoreReadReceipt, ListWebPushSubscriptions, StoreWebPushSubscription, DeleteWebPushSubscription", "database/postgres_schema.sql"]}
{"id": "C83", "title": "Moving to another database", "statement": "When the program that moves the data to another database ends without an error, the new database has every user with the same settings, and for each user the same networks with the same channels, delivery receipts, read receipts and push subscriptions; nobody gets the networks or passwords of another user. When a record cannot be stored, the program ends with an error. Both kinds of database can be named as in the configuration file.", "quantifier": "all contents and identifiers of the source database, both kinds of destination, all limits of its columns, all orders in which maps are gone through", "why_tests_cant": "There is no test of the program; whether it copies everything depends on the identifiers and contents of the database it starts from.", "anchors": ["contrib/migrate-db/main.go: main", "database/postgres.go", "database/sqlite.go", "database/database.go: Open"]}
{"id": "C84", "title": "The account data in an SQLite database", "statement": "With an SQLite database, the users, networks, channels, receipts and push subscriptions that are listed are exactly those that were stored and not deleted since, each with the settings stored last and times to the millisecond; a call succeeds exactly if what it refers to exists, nothing collides and nothing would be left that refers to something deleted; no identifier is given twice; deleting a user leaves nothing of this user and changes nothing for others. What a successful call stored is listed afterwards, and it changes no other record.", "quantifier": "all sequences of calls that store, update and delete records of any user, and all contents with times in the years 0 to 9999", "why_tests_cant": "Tests store a few records in one order; the claim is about every history of calls, including failing ones and transactions that are rolled back.", "anchors": ["database/sqlite.go: Stats, ListUsers, GetUser, ListInactiveUsernames, StoreUser, DeleteUser, ListNetworks, StoreNetwork, DeleteNetwork, ListChannels, StoreChannel, DeleteChannel, ListDeliveryReceipts, StoreClientDeliveryReceipts, GetReadReceipt, StoreReadReceipt, ListWebPushConfigs, StoreWebPushConfig, ListWebPushSubscriptions, StoreWebPushSubscription, DeleteWebPushSubscription", "database/sqlite_schema.sql"]}
{"id": "C85", "title": "Log files hold the messages of their conversation", "statement": "With the log-file store every message is written to the log of its own network and target, none is lost however many conversations are active, and a renamed network takes its logs along; listing the conversations of a network gives those whose last line was written between the two bounds, in the direction asked for, the nearest ones first and no more than asked for; a search returns only messages of the conversation that lie between the bounds and match the sender and, whatever the case of letters, the text.", "quantifier": "every history of messages, network renames and restarts of the store; every network, target, bounds and limit; every search", "why_tests_cant": "the outcome depends on which files are kept open and which were renamed meanwhile, over unbounded histories", "anchors": ["msgstore/fs.go: Append, RenameNetwork, ListTargets, Search, isTimeBetween, truncateSecond", "user.go: updateNetwork"]}
{"id": "C86", "title": "A client knows who it is on the network", "statement": "While its network is connected, a client that reads the messages it is sent knows its nick and host as the server of the network last gave them, and with the capability in question also its user name (chghost), real name (setname) and account (sasl), and messages about other users do not mislead it; a client that sends SETNAME gets the real name it asked for: it is told it has it already only if so, otherwise the server is asked to change it, or the setting is changed and the bouncer reconnects.", "quantifier": "every history of connections, server messages, capability changes of server and clients, setting changes, logins and SETNAME commands; every client and casemapping", "why_tests_cant": "what a client knows depends on everything it was sent since it logged in, and on the capabilities at the time of each message", "anchors": ["downstream.go: updateNick, updateHost, updateRealname, updateAccount, updateSupportedCaps, welcome, handleMessageRegistered (SETNAME)", "upstream.go: handleMessage (NICK, SETNAME, CHGHOST, 396, 900, 901)", "user.go: run (eventUpstreamConnected)"]}
{"id": "C87", "title": "The bouncer listens as documented, and reloads its configuration as a whole or not at all", "statement": "Each listen directive opens exactly the listener the manual describes: the service and the use of TLS that its scheme names, the port given or the default port of the scheme, and for Unix domain sockets the path and its permissions. Whatever the directive, plain text is served over TCP only on localhost, for ident, or under a scheme that says insecure; administration is served only on a Unix socket that only the owner may use; TLS without a certificate keeps the bouncer from starting. Sending SIGHUP puts the new file into effect as a whole (settings, message of the day, certificate) if everything it names can be loaded, and otherwise changes nothing.", "quantifier": "every listen directive (any bytes), every host, port and path of the documented forms, every configuration file, every outcome of reading the files it names and every state the server may be in when it is reloaded", "why_tests_cant": "that no spelling of a directive opens a plain-text or administration port to the network is a claim about all strings, and that a failed reload leaves no trace is a claim about every point at which loading may fail", "anchors": ["cmd/soju/main.go: main, loadConfig, withDefaultPort", "config/config.go: DefaultUnixAdminPath", "server.go: Config, SetConfig", "fileupload/fileupload.go: New", "doc/soju.1.scd: listen"]}
{"id": "C88", "title": "sojuctl runs exactly the command it is given and reports its result; the administration socket refuses IRC clients", "statement": "Running sojuctl with words w1 … wn makes the bouncer run the service command made of exactly these words with the rights of an administrator, prints exactly what the command prints, and succeeds just when the command does; it never reports success for a command that was not run to its end, wherever the connection fails. It connects to a socket on which the bouncer with the same configuration file serves the administration. On the administration socket only complete command lines have an effect, one after the other in the order sent; a connection that speaks like an IRC client is turned away before it can do anything.", "quantifier": "every list of words, every sequence of messages sent on the socket, every behaviour of the service commands, every configuration file and every point at which the connection fails", "why_tests_cant": "it relates two programs for all command lines and all behaviours of the commands, with quoting in one and unquoting in the other, and all interruptions", "anchors": ["server.go: HandleAdmin", "cmd/sojuctl/main.go: run, quoteWords", "service.go: handleServicePRIVMSG, splitWords", "cmd/soju/main.go: main"]}
{"id": "C89", "title": "A ZNC configuration file is read as it is written when it is imported", "statement": "The import reads from a well-formed ZNC configuration file exactly what is written in it: every setting and every section, at every depth and in order, whatever the white space and the comments; a file that is not well-formed is rejected as a whole and not imported in part. The server of a network is reached at the host and port that are written, over TLS just if the port is marked for it, with the password that is written.", "quantifier": "every file and every server setting", "why_tests_cant": "a recursive grammar with unbounded nesting; soundness and completeness of a parser are claims about all texts", "anchors": ["contrib/znc-import/main.go: zncParser.sectionBody, sectionHeader, sectionFooter, keyValuePair, readWord, skipSpace, skipComment, zncValues.Get, zncSection.ForEach, importNetworkServer"]}
{"id": "C90", "title": "Importing a ZNC configuration adds what is in it and keeps everything else", "statement": "After a ZNC configuration has been imported, each chosen user, network and channel of the file is in the database with the settings written there (a network takes the nickname, user name and real name of its user where it has none); what the file does not say about them, the identifier, password, connect commands or relay settings of records that were there before for example, has not changed. Users, networks and channels that are not in the file or not chosen are as before, also if the import fails. Importing the same file again changes nothing. An import that fails changes nothing.", "quantifier": "every configuration without repeated sections, every choice of users and networks and every history of the database", "why_tests_cant": "the effect depends on all records in the database and all sections of the file; that nothing else changes is a claim about every record", "anchors": ["contrib/znc-import/main.go: main, importNetworkServer", "database/sqlite.go: StoreUser, StoreNetwork, StoreChannel"]}
{"id": "C91", "title": "Moving the log files into the database keeps the history", "statement": "After the log files of a server have been moved into the database with migrate-logs, every message that was said and is in the log of a conversation is in the stored history of the conversation: with its text, sender and time, once, in the order of the days and of the lines of each day, after whatever was stored before. Nothing else is added to the history, and nothing that was stored is lost or changed.", "quantifier": "every tree of log files, every list of networks and every content of the database", "why_tests_cant": "the order of the files, the lines that are no messages and the contents of the database can be combined without bound", "anchors": ["contrib/migrate-logs/main.go: main, migrateNetwork", "msgstore/znclog/writer.go", "msgstore/znclog/reader.go: UnmarshalLine", "database/sqlite.go: StoreMessages"]}
{"id": "C92", "title": "Names are compared as the server compares them", "statement": "Once a server has announced its case mapping (or has ended its greeting without announcing one: RFC 1459), every table in which the bouncer keeps names for this network compares names as the server does: saved channels, channels and their members, known users, delivery receipts, push targets, the nicks monitored by the bouncer and by each client, and the comparison of a name with the nick of a client. This holds whatever happened before: clients that logged in earlier or later, names that were kept under another mapping, lost connections, changes of the settings. A nick that a client monitors stays in its list until the client removes it.", "quantifier": "every history of announcements, connections, logins, changes of settings and operations on the tables, and every order in which Go visits the entries of a map", "why_tests_cant": "there are a dozen tables that are made and changed at different times, and the histories are unbounded", "anchors": ["user.go: network.updateCasemapping, newNetwork, updateNetwork", "downstream.go: updateCasemapping, updateNick, welcome", "upstream.go: connectToUpstream, handleMessage (RPL_ISUPPORT, RPL_ENDOFMOTD, JOIN)", "xirc/casemapping.go: CaseMappingMap"]}
{"id": "C93", "title": "What the service reports is true", "statement": "`channel status` lists the saved channels of the networks it is asked about, each exactly once, network by network and sorted by name, and says of each truly whether the user is in it, has left it or is not connected, and whether it is detached; its lines can be read in one way only. `network status` has one true line for each network. `user status` has a true line for each of at most fifty users and says how many it leaves out. The answer to `server notice` tells to how many connections the notice was sent.", "quantifier": "all lists of networks with any saved channels, connections and case mappings, all users and numbers of networks, all arguments and networks of the asking client, all iteration orders of maps, all sets of event loops reached", "why_tests_cant": "The report depends on the whole state of a user: names that differ in case only, networks that share a name and an address, more than fifty users, and how many clients each user has; a test has one such state.", "anchors": ["service.go: handleServiceChannelStatus, handleServiceNetworkStatus, handleUserStatus, handleServiceServerNotice", "user.go: getNetwork, eventBroadcast", "database/database.go: GetName"]}
{"id": "C94", "title": "The bouncer stops cleanly", "statement": "When the bouncer is told to stop, it ends: every user's event loop, every listener and the goroutine that disables inactive accounts come to their end, whatever clients and servers send in the meantime; every user whose loop has not crashed has by then saved which messages the clients have received; and the database is closed only after that.", "quantifier": "every interleaving of the goroutines, every number of users and listeners, every sequence of events that arrive meanwhile, every point at which loops crash", "why_tests_cant": "goroutine schedules around a lock, a wait group and bounded channels", "anchors": ["server.go: Server.Shutdown, Server.Serve, Server.Handle, addUserLocked, createUser, disableInactiveUsersLoop", "user.go: run (eventStop)", "cmd/soju/main.go: main (signals)"]}
{"id": "C95", "title": "Uploads that are kept by another service", "statement": "If the bouncer is configured to hand file uploads to another HTTP service, the service gets at most one request for a request of a client, and only for an upload with accepted credentials, of a page that is allowed, within the size limit; the request names the user whose credentials were given and carries the file name, the type and the content given by the client. The client is told of success exactly if the service created the file and gave its location, which is then the location the client gets; errors of the service are passed on; success means that the service got the whole file. Files are not served by the bouncer, and whatever the service answers cannot run scripts in a browser or be read by the pages of other sites.", "quantifier": "every request, every authenticator, every behaviour of the service, every list of allowed sites", "why_tests_cant": "all requests and all answers of a remote service, including broken and oversized bodies", "anchors": ["fileupload/http.go: fileuploadHTTP.load, fileuploadHTTP.store", "fileupload/fileupload.go: Handler.ServeHTTP, Handler.store, httpError.Write"]}
{"id": "C96", "title": "What a client says is passed on as it was said", "statement": "When a client sends a message to a list of targets, each target on the network gets it once and in order, through the server, with the text unchanged, up to the first target that cannot be served, for which there is one error; the service of the bouncer gets what is for it and nobody else does; only administrators can talk to everyone on the bouncer. A client cannot forge tags: whatever others, the log or the server get, tags that clients may not set were set by the bouncer, and those they may set arrive unchanged. If the server does not echo messages, the log and the other clients of the user get the message once, under the user's name there. The bouncer does not write to memory another goroutine reads.", "quantifier": "every message, every list of targets, every combination of capabilities of the server, every speed of the goroutine that writes to the server", "why_tests_cant": "all target lists and tag maps, and the schedules of two goroutines that share a map", "anchors": ["downstream.go: handleMessageRegistered (PRIVMSG, NOTICE, TAGMSG), upstreamForCommand", "irc.go: parseMessageParams, copyClientTags", "upstream.go: SendMessageLabeled, SendMessage", "conn.go: newConn, SendMessage"]}
{"id": "C97", "title": "Batches are framed", "statement": "Everything a client is sent in batches (missed messages, history, search results, conversations, networks) is framed: each batch has a reference never used before on the connection, is started once and ended once, every message that refers to a batch comes between its start and its end, and messages outside of it refer to none. A batch has all messages that were found and that the client may see, in their order. A client that has not asked for batches gets neither batches nor references. This holds while other clients are being sent the same messages, and no goroutine reads a message that another one writes to.", "quantifier": "every history of connections, changes of capabilities, messages and batches, every message store, every speed of the goroutines that write to the clients", "why_tests_cant": "messages are shared by pointers between clients, stores and goroutines; all interleavings", "anchors": ["downstream.go: SendBatch, SendMessage, sendTargetBacklog, welcome, handleMessageRegistered (CHATHISTORY, SEARCH, BOUNCER LISTNETWORKS)", "msgstore/memory.go: LoadLatestSeq", "upstream.go: produce", "conn.go: newConn"]}
{"id": "C98", "title": "Push messages", "statement": "A user who subscribed to push messages gets, for the network, exactly the private messages of others, the messages of others that mention the user in a channel (unless the channel is detached and set to relay nothing), and the invitations that the bouncer does not answer itself. When a conversation of which something was pushed is read elsewhere, this is pushed too. Each is sent once to each subscription for that network and to nobody else's, with the keys of the subscription and the key that the bouncer announced; a subscription is dropped as expired only when the push server says so. The key of the bouncer stays the same over restarts, so that subscriptions remain valid.", "quantifier": "all messages, channel settings, orders of messages, read markers, restarts and failures, and all answers of push servers", "why_tests_cant": "The combinations of routing, detached channels, read markers and restarts are unbounded.", "anchors": ["upstream.go: handleMessage (PRIVMSG, INVITE)", "downstream.go: handleMessageRegistered (MARKREAD)", "user.go: network.broadcastWebPush", "server.go: sendWebPush, loadWebPushConfig"]}
{"id": "C99", "title": "The bouncer keeps its networks connected", "statement": "As long as a network of an enabled account is enabled and not removed, the bouncer connects to it, and tries again after every failure, except when the server refused the registration with an error that is not temporary. Two attempts are at least the back-off apart, the back-off grows with the failures and is reset once the bouncer is registered, and the next attempt is due a bounded time after a failure. A removed network is not connected any more. The commands to run at the connection are sent once for each registration, in order, after it. The clients are told, once, each time a network is connected or lost, and each new error.", "quantifier": "all sequences of answers of the server, failures of the network, times and removals, and all histories of an account", "why_tests_cant": "The sequences of failures are unbounded, and the network may be removed at any moment of an attempt.", "anchors": ["user.go: network.run, network.runConn, network.stop, user.run", "upstream.go: runUntilRegistered, registrationError", "backoff.go"]}
{"id": "C100", "title": "A change of a network changes what was asked, and nothing else", "statement": "When a network is created or changed, by a command of the service, by BOUNCER or by NICK or SETNAME, it gets exactly the settings that were asked for; settings that were not mentioned stay, or are the usual ones for a new network. The nick, the username and the realname that the bouncer then uses are those asked for. No other network changes, no setting of the account does, and a network keeps its settings as long as nothing is done about it. Flags that are not valid are refused.", "quantifier": "all accounts, networks, flags and attributes, and all histories of them", "why_tests_cant": "The combinations of settings given and not given, with values that equal the defaults, are unbounded.", "anchors": ["service.go: networkFlagSet.update, handleServiceNetworkCreate, handleServiceNetworkUpdate, handleServiceNetworkDelete", "downstream.go: updateNetworkAttrs, handleMessageRegistered (BOUNCER, NICK, SETNAME)", "user.go: createNetwork, updateNetwork, deleteNetwork", "database/database.go: NewNetwork, GetNick, GetUsername, GetRealname"]}
{"id": "C101", "title": "A service command that succeeds does what it says", "statement": "A command line given to the service that reports success changes exactly what its words say: `network create` adds one network with the settings given, `network update` changes the named network (or that of the client) in the settings given and no other, the last value of a setting counting; `network delete` removes the network and its channels; `sasl set-plain`, `sasl reset` and `certfp generate` change the credentials of that network only; `channel create`, `channel update` and `channel delete` add, change or remove the channel that is named, whose place in the history is kept when it gets detached. A name that is shown for a network means that network. `user create` adds one account with the settings given; it must have a name that is free, and either a password or none, not both. `user update -disable-password` turns the password off and changes nothing else. A command with a word that does not belong to it is refused and changes nothing. `certfp generate` makes a key of the kind and size asked for, of 1 to 8192 bits.", "quantifier": "all settings of a user, all lists of settings in any order and with repetitions, all names, clients bound or not bound to a network, all outcomes of the database and of the libraries for durations, certificates and URLs", "why_tests_cant": "The settings can be combined, repeated and ordered in unboundedly many ways, and each must leave all other settings of all other networks and channels alone", "anchors": ["service.go: handleServiceNetworkCreate, handleServiceNetworkUpdate, handleServiceNetworkDelete, handleServiceSASLSetPlain, handleServiceSASLReset, handleServiceCertFPGenerate, handleServiceChannelCreate, handleServiceChannelUpdate, handleServiceChannelDelete, stripNetworkSuffix", "user.go: getNetwork", "service.go: handleUserCreate, handleUserUpdate"]}
{"id": "C102", "title": "The help of the service lists the commands one can use", "statement": "`help` prints a list of commands: every line of it can be given to the service as printed by the one who asked and runs a command, and every command they may run is in the list, once. Help about a group of commands, however its name is abbreviated, lists exactly the commands of the group that can be used. Help about a command shows the usage and the description of the command these words would run, and help about words that name no command is an error.", "quantifier": "all contexts (user or administration socket, administrator or not), all words and abbreviations, all orders in which maps are iterated", "why_tests_cant": "The list must agree with what the lookup and the checks of rights accept, for every abbreviation, context and iteration order; the two are separate pieces of code", "anchors": ["service.go: appendServiceCommandSetHelp, handleServiceHelp, handleServiceCommand, serviceCommandSet.Get, serviceCommandSet.Names"]}
{"id": "C103", "title": "sojudb creates the account it is asked for and changes the password it is asked to", "statement": "When `sojudb create-user` succeeds, the database has one more account, with the name given, enabled, with the password given, an administrator exactly if asked for; when `sojudb change-password` succeeds, the password of the named account is the new one and stays so, and nothing else has changed. One can then log in with that password. When the program fails, nothing has changed. The password is the line that was given, and not empty.", "quantifier": "all databases reached by any calls, all names, flags, passwords and inputs, all outcomes of the hashing", "why_tests_cant": "Every other account, setting and table must be left alone in whatever database there is, and every line of input must be taken as it is", "anchors": ["cmd/sojudb/main.go: main, readPassword", "database/sqlite.go: StoreUser, GetUser", "database/database.go: NewUser, SetPassword", "user.go: updateUser, bumpDownstreamInteractionTime"]}
{"id": "C104", "title": "A client knows the modes of its user", "statement": "What a client of a network was told of the modes of the user (when it logged in, when it asked, and when they changed) adds up to what the server has said on this connection: it knows exactly the modes that are set. A client that asks is told them; a client that changes them passes this on to the server in its own words. An administrator on the bouncer connection is an operator there.", "quantifier": "all histories of connections, nick changes, MODE and RPL_UMODEIS of the server, clients coming, going, asking and changing modes, at every moment", "why_tests_cant": "The belief of a client depends on everything it was told since it logged in, interleaved in any way with the server's messages", "anchors": ["upstream.go: handleMessage (MODE, RPL_UMODEIS)", "downstream.go: welcome, handleMessageRegistered (MODE)", "irc.go: userModes"]}
{"id": "C105", "title": "The greeting says who and where one is", "statement": "Once logged in, a client is sent one greeting: it starts with the welcome that tells it its nick and ends with the end of the message of the day, or the statement that there is none, and neither comes anywhere else in it. The message of the day is the configured one, line by line, on the connection to the bouncer, and there is none on a network. On the connection to the bouncer it announces exactly the features the bouncer has; on a network it announces the network's number, history, files and push messages exactly if there are such, and those features of the server that clients may know, with the value the server gave last; what the server says later keeps the client up to date.", "quantifier": "all settings, users, networks and connections, all iteration orders of the table of features, all histories of RPL_ISUPPORT before and after the client logs in", "why_tests_cant": "The set of features depends on every combination of settings, and on all the server has said so far in any order", "anchors": ["downstream.go: welcome, upstream", "xirc/genmsg.go: GenerateIsupport, GenerateMOTD", "upstream.go: handleMessage (RPL_ISUPPORT)"]}
{"id": "C106", "title": "The bouncer goes on accepting connections", "statement": "Every connection the listener hands out is served, once, in the order of arrival, whatever temporary errors come between. After a temporary error the bouncer waits: 5 ms, then twice as long after each further error in a row, up to a second, and from 5 ms again after a connection; it never waits longer. It stops accepting only when the listener is closed, without an error, or fails for good, with one.", "quantifier": "all sequences of answers of the listener (connections, temporary errors, closing, other errors)", "why_tests_cant": "The sequences of errors and connections are unbounded, and a lost connection or an endless delay shows only in some of them", "anchors": ["server.go: retryListener.Accept, NewRetryListener, Serve", "identd/identd.go: Serve", "cmd/soju/main.go: main"]}
{"id": "C107", "title": "Clients on a WebSocket", "statement": "A message for a client on a WebSocket is sent as one text frame, which is well-formed UTF-8 whatever bytes the message has: a message in UTF-8 is sent as it is; otherwise a row of bytes that cannot be read becomes one replacement character, and all else, in particular all of ASCII, is kept in its order. A frame from such a client is one message.", "quantifier": "all messages, as sequences of bytes; all frames", "why_tests_cant": "Well-formedness must hold for every sequence of bytes, including sequences cut off or mixed in any way", "anchors": ["conn.go: websocketIRCConn.WriteMessage, websocketIRCConn.ReadMessage"]}
{"id": "C108", "title": "A client knows the modes of a channel", "statement": "Whenever a client has been told the modes of a channel it is on, adding up the list it got and the changes that followed gives exactly what the server has said, whatever was set, detached and attached in between. When the server lists the modes of a channel for the first time, every client on the channel is told. A client that asks later is answered alone, in full, from what the bouncer keeps, with the time of creation if it is known, and the server is not asked. A change is passed on to the server in the words of the client.", "quantifier": "all sequences of joins, parts, lists of members, MODE lines, lists of modes, times of creation, detaching, attaching, logins, logouts and questions of any number of clients; all tables of modes", "why_tests_cant": "The knowledge of every client must agree after every interleaving of changes, questions, and detaching; a test tries a few", "anchors": ["upstream.go: handleMessage (MODE, RPL_CHANNELMODEIS, RPL_CREATIONTIME)", "downstream.go: handleMessageRegistered (MODE)", "user.go: attachChannel, detachChannel", "downstream.go: welcome"]}
{"id": "C109", "title": "Who has the right password gets in", "statement": "A client that gives a password the authenticator accepts, by SASL or by PASS, completes its registration as the user it named, however long its response and so however many lines it is sent in, with the network and the name of the client taken from the login name or, if that does not say, from the user name; if the two contradict each other the connection is closed. An administrator gets in as another user in the same way. A client is bound to a network by its number only if it asked for it, after it said who it is, and with a positive number.", "quantifier": "all users, networks, names of clients, passwords, SASL responses of up to 10 KiB, numbers of networks, authenticators and decoders", "why_tests_cant": "The response may be of any length and the suffixes may be given in either place in any combination", "anchors": ["downstream.go: handleAuthenticate, handleMessageUnregistered, register, setAuthUsername, unmarshalUsername, parseBouncerNetID"]}
{"id": "C110", "title": "A client knows the topic of a channel, who set it and when", "statement": "Every client that is on an attached channel knows, at every moment after the list of members was given, the topic the server has told, who set it and when: from the messages as they come if it was there, from what it is told when it logs in or when the channel is attached again if it was not. A client that asks gets the topic with its author and time, or that there is none, and nobody else hears of it; a topic it sets goes to the server unchanged.", "quantifier": "all histories of joining, leaving, topics, authors and times told by the server, detaching, attaching, clients coming, going and asking", "why_tests_cant": "What a client knows is the sum of all messages it was sent since it came, in every order of changes, logins and detachings", "anchors": ["upstream.go: handleMessage (RPL_TOPIC, RPL_NOTOPIC, TOPIC, RPL_TOPICWHOTIME, RPL_ENDOFNAMES)", "downstream.go: handleMessageRegistered (TOPIC), sendTopic, forwardChannel, welcome", "user.go: attach, detach"]}
{"id": "C111", "title": "Messages are handled in the order they came, each once", "statement": "For every connection of a user, to a client or to a server, and whatever the other connections do: the messages the bouncer handles are the first ones the other side sent, in the order in which it sent them, none twice and none left out in between. The loop of the user hears that the connection is there before its messages, and that it is gone after them. Once everything has been read and taken, every message has been handled, unless the connection was closed. Events wait in the order they were sent, at most 64 of them, and nothing overtakes: the i-th waiting event is the i-th the loop takes. A stopped loop takes nothing.", "quantifier": "all interleavings of the reading goroutines of any number of connections, the other senders of events and the loop of the user; all messages; connections closed or broken at any time; any capacity of the channel of events", "why_tests_cant": "Reordering, loss and duplication depend on how goroutines are scheduled and on when a connection is closed; a test sees the schedules its machine happens to produce.", "anchors": ["server.go:Server.Handle", "user.go:network.runConn", "user.go:user.run", "downstream.go:downstreamConn.readMessages", "downstream.go:downstreamConn.runUntilRegistered", "upstream.go:upstreamConn.readMessages", "upstream.go:upstreamConn.runUntilRegistered", "conn.go:conn.Close", "conn.go:conn.isClosed"]}
{"id": "C112", "title": "The servers know the nick and the real name that are set", "statement": "The nick set for a network is its own, else that of the account, else the name of the account; the real name is its own, else that of the account, else the nick. The server of each network is told these when the bouncer connects, also after a restart, and when they change: a client's NICK and SETNAME, an update of the network or of the account reach the servers concerned, over the connection or by connecting again, and a success that is reported means that the setting is stored. Other networks, and networks with a nick and a real name of their own when the account changes, are not disturbed.", "quantifier": "every history of networks created and deleted, connections made, registered and lost, SETNAME enabled and disabled by servers, settings changed by clients, failures of the database and restarts; all nicks and names; any number of networks", "why_tests_cant": "What a server was told depends on the state of its connection and on which of the three settings was in force at each change of another.", "anchors": ["user.go:user.updateUser", "user.go:user.updateNetwork", "user.go:user.createNetwork", "downstream.go:downstreamConn.handleMessageRegistered (NICK, SETNAME)", "upstream.go:upstreamConn.register", "database/database.go:GetNick", "database/database.go:GetRealname"]}
{"id": "C113", "title": "A message has one time", "statement": "A message of the server is shown to clients with the time the server gave it (to the second when messages are kept in log files), or the time it was received if the server gave none that can be read; whenever it comes from the history again it has the time it was shown with, and requests for a range of time select and sort it by this time, whichever store is used and whatever the local time zone.", "quantifier": "all times and tags, all stores, all time zones with their changes of the clocks", "why_tests_cant": "The time passes through four representations and the rules of the local time zone; tests run in one time zone, and not in the hours where the clocks change.", "anchors": ["upstream.go:upstreamConn.handleMessage", "user.go:user.FormatServerTime", "msgstore/fs.go:fsMessageStore.Append", "msgstore/znclog/reader.go:UnmarshalLine", "msgstore/znclog/writer.go:MarshalLine", "database/sqlite.go:SqliteDB.StoreMessages", "database/postgres.go:PostgresDB.StoreMessages"]}
{"id": "C114", "title": "The bouncer does not flood servers", "statement": "However fast clients and the bouncer itself produce messages for a server, no more than ten of them plus one for every two seconds are written in any period, unless the server has announced that its flood protection never disconnects; a message at the head of the queue waits at most two seconds, and after twenty seconds of silence ten messages go out without any wait.", "quantifier": "all sequences of messages with all times between them, all durations of the writes, all periods; all delays and burst sizes", "why_tests_cant": "The bound is over every period of every schedule of messages; a test sees a few schedules, and waiting for real time to pass is slow and flaky.", "anchors": ["conn.go:newConn", "server.go:upstreamMessageDelay", "server.go:upstreamMessageBurst", "upstream.go:connectToUpstream", "upstream.go:upstreamConn.handleMessage"]}
{"id": "C115", "title": "An administrator's view of the server is true, and their notices reach everybody", "statement": "`server status` tells how many users are running, how many client connections are open and how many servers the bouncer is connected to. A `server notice` is sent exactly once to each client that is logged in when it is given, whatever clients come and go meanwhile; it reports an error if some user could not be reached in time, and otherwise the number of client connections it was sent to.", "quantifier": "all histories of users, clients, connections to servers and notices, in every interleaving of the users' event loops and the connections' goroutines", "why_tests_cant": "The figures are kept by many goroutines and the notices go through the queues of all users; tests see a few interleavings.", "anchors": ["server.go:Server.Handle", "server.go:Server.Stats", "server.go:Server.forEachUser", "user.go:network.runConn", "user.go:user.run", "service.go:handleServiceServerNotice", "service.go:handleServiceServerStatus"]}
{"id": "C116", "title": "Logging in to a network through the bouncer", "statement": "A client that logs in to an account of the network with SASL through the bouncer can do so as if it talked to the server: the server gets the credentials the client gave, and no others, in the same lines; the client gets the outcome the server reports, and is told of success only if the server reported it for this exchange. At most one exchange with the server is open. Once an exchange is over, for whatever reason, this client and the others can start another.", "quantifier": "every sequence of AUTHENTICATE commands of any number of clients, of messages of the server, of capability changes and of lost connections; every user name and password", "why_tests_cant": "the interleavings of the exchanges of several clients with the exchange with the server, its ways of ending and the loss of the connection are unbounded", "anchors": ["downstream.go: handleMessageRegistered (AUTHENTICATE), handleAuthenticate, endSASL", "upstream.go: enqueueCommand, dequeueCommand, abortPendingCommands, handleMessage (AUTHENTICATE, 902-906, 263/400/421/461, FAIL), handleCapAck"]}
{"id": "C117", "title": "Every command of a client is passed on, or answered", "statement": "A command that means nothing to the bouncer is passed on to the server of the client's network as it was given, once, and nothing else is sent to anybody. The other commands (PING, USER, MODE, TOPIC, LIST, NAMES, WHO, WHOIS, REGISTER, VERIFY) are answered by the bouncer, or passed on, or put into the queue for the server, and only one of the three; of a NAMES with several channels this holds for each channel. A server gets nothing but what clients of its network asked for while it was connected. A client that has no network, or whose network is not connected, is told that its command is refused. No other client gets an answer. What a client sends after QUIT is not carried out, and numerics name the client they are for.", "quantifier": "every history of connections, of logins and of commands of any number of clients and networks; every command name, every parameters and tags", "why_tests_cant": "the commands are unbounded (any word is one), and what is sent to which server depends on the history of connections and clients", "anchors": ["downstream.go: handleMessage, handleMessageRegistered (PING, PONG, USER, KICK, MODE, TOPIC, LIST, NAMES, WHO, WHOIS, INVITE, REGISTER, VERIFY, INFO, default), upstreamForCommand, newUnknownCommandError, newUnknownIRCError, newNeedMoreParamsError", "upstream.go: SendMessage, SendMessageLabeled, isChannel", "user.go: run (eventDownstreamMessage)"]}
{"id": "C118", "title": "The reply to a query reaches the client that asked, completely, and nobody else", "statement": "Clients of a network ask the server with LIST, WHO, WHOIS, REGISTER and VERIFY, at any time and several at once. If the server answers each command it gets with the lines of a reply and its end, or with a refusal, then every client is sent the answers to the commands it gave, in the order it gave them, each complete and once, and no line of an answer to another client; a command that waits does so only while the server works on another one of its kind. As the code stands this fails: the end of a reply that many servers send after 'no such nick' ends the reply of another client; lines such as 'is away' are sent to all clients if the server has no labels; a refusal meant for a client that has gone is sent to all others; lines of WHO without a real name are dropped, and so is an answer to REGISTER without an account name; a WHOIS refused because of an unknown server blocks all later ones.", "quantifier": "all histories of clients that connect, ask and leave, all interleavings with the lines of the server, all answers, with and without labels", "why_tests_cant": "Whose reply a line is depends on the whole history of commands, departures and lines before it; tests try one client with one command.", "anchors": ["upstream.go: forEachDownstreamByID", "upstream.go: forwardMsgByID", "upstream.go: currentPendingCommand", "upstream.go: dequeueCommand", "upstream.go: enqueueCommand", "upstream.go: cancelPendingCommandsByDownstreamID", "upstream.go: handleMessage (LIST, WHO, WHOIS, REGISTER, VERIFY, ERR_NOSUCHNICK, ERR_UNKNOWNCOMMAND, FAIL)"]}
{"id": "C119", "title": "What the server says is passed on", "statement": "What a server says and the bouncer has no use for reaches the clients of the user unchanged, once and in order: a reply that is labelled reaches the client that asked, anything else all of them. Of the lines a server greets with, those up to the end of the message of the day are kept from the clients, later ones are passed on. Refusals of a login end the connection before the server's welcome and are passed on after it. An invitation of the user reaches all clients and is pushed, unless it is to a saved channel that the bouncer is not in: then the bouncer joins it, with the saved name and key. Invitations of others reach only clients that asked for them. Nothing else is said to the server, and after the welcome no message ends the connection.", "quantifier": "all histories of a connection: clients of any number that come and go, messages of any command and parameters, labelled or not, in any order, any nick, any joined and saved channels, any case mapping", "why_tests_cant": "Whether a line is passed on depends on the history of the connection, and the claim is about all commands, most of which the code does not know.", "anchors": ["upstream.go: (*upstreamConn).handleMessage, forwardMessage, forwardMsgByID, forEachDownstreamByID", "upstream.go: runUntilRegistered", "user.go: (*user).run (eventUpstreamMessage)"]}
{"id": "C120", "title": "A connection that makes no progress is given up", "statement": "A client that does not log in is not kept: whatever it sends, and however slowly it reads, its connection is closed after 30 seconds and the time it takes to send what is queued, and it is told why unless it takes nothing from the connection. No client is told so or disconnected for it sooner, nor one that logged in before that time. Connecting to a server is given up after 15 seconds. A server that accepts the connection is given a minute to let the bouncer in; if it takes longer the connection is given up and tried again, and a connection that is used has joined the saved channels and sent the connect commands.", "quantifier": "all histories of a connection and of the clock: messages sent to the client at any time, writes of any duration, the client logging in, being refused or hanging up at any time, servers that answer at any time or never, any saved channels and connect commands", "why_tests_cant": "The claim is about what has happened by a certain time in every schedule of four goroutines, a full queue and a clock; a test sees one schedule and would have to wait.", "anchors": ["downstream.go: (*downstreamConn).runUntilRegistered", "conn.go: newConn, SendMessage, Shutdown", "user.go: (*network).runConn", "upstream.go: connectToUpstream, runUntilRegistered"]}
{"id": "C121", "title": "Only debugging shows in the log what users say", "statement": "Whether the bouncer logs for debugging is decided by the last accepted `server debug`, or by `-debug` if there was none; any other words after the command change nothing. While it is on, every message received from a client or a server and every message sent to one is in the log, and nothing else about the bouncer changes. While it is off, no message is written to the log, unless it could not be handled. The numbers of messages received from clients and from servers that are published are the numbers of messages they sent, and the numbers of messages sent to them those of the messages they were sent.", "quantifier": "all histories of any number of clients and servers: messages before and after login, handled at any time and with any result, messages sent to them and written at any time or never, connections closed at any time, any `server debug` commands", "why_tests_cant": "Whether a secret reaches the log depends on how reading, handling, writing and closing a connection interleave; a test sees one order.", "anchors": ["server.go: NewLogger, (*prefixLogger).Debugf, registerMetrics", "service.go: handleServiceServerDebug", "conn.go: newConn, ReadMessage, SendMessage", "user.go: (*user).run", "downstream.go: runUntilRegistered, handleMessage", "doc/soju.1.scd: server debug", "upstream.go: handleMessage, ReadMessage, SendMessage, runUntilRegistered"]}
{"id": "C122", "title": "The published numbers of networks name only hosts many networks use", "statement": "With a PostgreSQL database the metrics name a host only if ten networks at least are on it, with the number of its networks, however their addresses are written; all other networks are counted together under `*`. Each host appears once, the numbers add up to the number of networks, and whatever addresses users have chosen the numbers are published. A host that only one user has is not named.", "quantifier": "all tables of networks and all addresses in them, all orders in which the rows and the entries of maps are visited, all parsers of host names", "why_tests_cant": "The claim is about all tables and addresses and all orders of iteration; tests have no PostgreSQL and a few addresses.", "anchors": ["database/postgres.go: listTopNetworkAddrs, postgresMetricsCollector.Collect", "database/database.go: (*Network).URL", "user.go: checkNetwork"]}
{"id": "C123", "title": "History is kept where the configuration says", "statement": "The messages of every user are kept where the configuration said when the bouncer was started, each once, and reloading the configuration does not change that. Users share nothing but the database. The clients of a user read from where the messages of the user are written; a client is offered history requests exactly if they are answered, and a client that does not use them is sent the backlog, so that none is left without history.", "quantifier": "all configurations, all users, and all histories of reloads, new and stopped users, connections, logins, capability requests and messages", "why_tests_cant": "The claim is about all interleavings of reloads with the start of users and connections; tests start one server with one configuration.", "anchors": ["user.go: newUser, hasPersistentMsgStore", "downstream.go: newDownstreamConn, (*downstreamConn).sendTargetBacklog, CHATHISTORY, SEARCH", "cmd/soju/main.go: loadConfig, main", "server.go: addUserLocked, createUser, SetConfig", "doc/soju.1.scd: reloading"]}
{"id": "C124", "title": "A client that comes back after a restart gets what was said, whatever message store is used", "statement": "The bouncer may be restarted with the same or another message store. A client that comes back afterwards is sent the messages that are in the store and were said since it was last there, and no message is sent to it twice.", "quantifier": "all histories of messages, connections, disconnections and restarts, each restart with any message store", "why_tests_cant": "The claim is about all sequences of restarts and stores; tests use one store and do not restart.", "anchors": ["user.go: storeClientDeliveryReceipts, run, hasPersistentMsgStore", "downstream.go: (*downstreamConn).sendTargetBacklog", "msgstore/msgstore.go: ParseMsgID", "msgstore/memory.go, msgstore/fs.go, msgstore/db.go: LoadLatestID"]}
