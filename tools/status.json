{
 "C01": [
  "proved",
  "Round-trip with trailing bytes, failure exactly when a field does not fit, injectivity."
 ],
 "C02": [
  "proved",
  "Any grouping into receives; nothing before the last fragment. Messages are non-empty (a packed message has a 40 byte header) and shorter than 2^32."
 ],
 "C03": [
  "proved",
  "Over any sequence of single sends and batches on one fragmenter."
 ],
 "C04": [
  "proved",
  "Over any sequence of single sends and batches; the property after version negotiation is C08."
 ],
 "C05": [
  "proved",
  "Any grouping of blocks into receives."
 ],
 "C06": [
  "proved",
  "Any interleaving and grouping."
 ],
 "C07": [
  "proved",
  "Under the start-flag condition named in the property; without it the claim is false (C07_repeated_start_false). A truncated body is accepted (C07_truncated_body_false)."
 ],
 "C08": [
  "partial",
  "False after the limits are raised: blocks overrun the payload limit by the 21 byte header (C08_overrun_false). Proved: the overrun is at most 21 bytes and the envelope limit still holds."
 ],
 "C09": [
  "partial",
  "False when the two opening messages do not fit one block: the rest is never sent (C09_open_loses_data_false). Proved when they fit."
 ],
 "C10": [
  "proved",
  "Body kept as bytes; the client's bodies do not start with a byte order mark."
 ],
 "C100": [
  "proved",
  ""
 ],
 "C101": [
  "proved",
  ""
 ],
 "C102": [
  "partial",
  "C102_open_partial: messages that do not fit the first block are not sent at all, C09_open_loses_data_false. The pipeline part is complete."
 ],
 "C103": [
  "proved",
  ""
 ],
 "C104": [
  "partial",
  "the name of a scheme in another challenge hides the token; parameters after the boundary and boundaries without quotes are misread (negations proved)"
 ],
 "C105": [
  "proved",
  "exact for the lenient decoder; CPython's binascii is the reference"
 ],
 "C106": [
  "partial",
  "exact for texts with ASCII digits, exit codes and CLIXML numbers; false of ranges, which are not checked; digits outside ASCII, which Python accepts, are not modelled"
 ],
 "C11": [
  "proved",
  ""
 ],
 "C12": [
  "proved",
  "The claim as stated. U+FFFE and U+FFFF pass unescaped although XML cannot carry them (C12_noncharacters_false), so the stronger reading is only partial."
 ],
 "C13": [
  "partial",
  "False in full: eight characters U+xx00 U+5F00 U+78xx ... are misread across code unit boundaries (C13_shifted_false). Proved as an exact characterisation (C13_roundtrip_iff); every string without U+5F00 survives."
 ],
 "C14": [
  "proved",
  "\"Looks like an escape\" is the reader's own byte level notion (LooksEscaped and its shifted variant)."
 ],
 "C15": [
  "partial",
  "Round trip proved for every nested value made of scalars, lists of scalars and dictionaries of any depth. False of the code for containers directly inside a list, for b\"\" and for the strings excluded in C13; negations proved."
 ],
 "C16": [
  "proved",
  "For every modelled value and metadata; references to objects are covered as well. The XML text layer is not modelled."
 ],
 "C17": [
  "partial",
  "Proved when type lists that share their first name are equal. False otherwise because type names are keyed on the first name; negation proved."
 ],
 "C18": [
  "partial",
  "Proved for queues of one scalar kind; stacks proved to come back reversed. Mixed kinds, order of stacks and the caller's collection: negations proved."
 ],
 "C19": [
  "proved",
  "For every text and session key: round trip through PKCS7 and UTF-16LE, ciphertext in whole blocks, refused without a key. AES is an arbitrary invertible block cipher on whole blocks."
 ],
 "C20": [
  "proved",
  "Blob fields for every modulus below 2^2048; RSA decryption is an arbitrary function undone by the key owner."
 ],
 "C21": [
  "partial",
  "Round trip for every body, protocol and number of chunks, for sealing functions without padding whose output contains neither the boundary nor the marker line. The claim is false without these (C21_marker_false, C21_boundary_false, C21_padding_false)."
 ],
 "C22": [
  "proved",
  ""
 ],
 "C23": [
  "proved",
  "For every body of clean parts, and for arbitrary bytes as: when unwrapping returns, every part had its declared length."
 ],
 "C24": [
  "proved",
  ""
 ],
 "C25": [
  "partial",
  "Holds when no line closes a block comment after code or opens one after code; a one-line block comment swallows the following code (C25_one_line_block_false)."
 ],
 "C26": [
  "proved",
  ""
 ],
 "C27": [
  "partial",
  "C27_stays_closed_partial as long as no server message after the close gives the pool a live state; with one the pool is usable again (C27_reopened_false). C27_deletes: deletes never exceed creates, in every history. C27_delete_once unless a message says the pool is not yet opened (C27_deleted_twice_false)."
 ],
 "C28": [
  "proved",
  ""
 ],
 "C29": [
  "proved",
  "The maximum is exact as long as no foreign availability answer is handled by get_available_runspaces."
 ],
 "C30": [
  "partial",
  "The minimum is unchanged and the maximum is the old one or a number the server sent (C30_limits_partial). That the maximum is unchanged is false (C30_max_false)."
 ],
 "C31": [
  "partial",
  "Disconnect marks finished pipelines as well: shown false, with the round trip for running pipelines."
 ],
 "C32": [
  "partial",
  "An unfinished exchange blocks later ones: shown false."
 ],
 "C33": [
  "partial",
  "A server key request is ignored by the client: shown false."
 ],
 "C34": [
  "partial",
  "C34_is_alive_partial for every outcome of the shell query but an HTTP read timeout, which is raised (C34_read_timeout_false). C34_close_after_dead holds in full."
 ],
 "C35": [
  "proved",
  ""
 ],
 "C36": [
  "proved",
  "C36_streams is for all histories; C36_polls and C36_host are for polls that returned normally."
 ],
 "C37": [
  "partial",
  "A handler exception loses output of the same receive: shown false."
 ],
 "C38": [
  "proved",
  ""
 ],
 "C39": [
  "partial",
  "Empty generator, None in a generator and falsy input: shown false."
 ],
 "C40": [
  "partial",
  "had_errors is never reset: shown false."
 ],
 "C41": [
  "proved",
  "A start that failed stays registered and is a finding in DESIGN.md."
 ],
 "C42": [
  "partial",
  "A failed stop signal leaves the pipeline stopping: shown false."
 ],
 "C43": [
  "proved",
  "Holds once a version is negotiated; without one merge_all raises after it has set the redirection of errors (C43_unnegotiated)."
 ],
 "C44": [
  "proved",
  "The encoding of a single command is not part of this model."
 ],
 "C45": [
  "proved",
  "Empty dimensions cannot be sent (C45_empty); a received array cannot be sent again before it was read (C45_resend)."
 ],
 "C46": [
  "partial",
  "Per request the budget bounds the attempts and the last error is raised (C46_bounded_partial). False as stated: a receive repeats connect timeouts five more times whatever the budget (C46_receive_false), and a connection lost after sending raises at once (C46_aborted_false)."
 ],
 "C47": [
  "proved",
  "Over all histories of a transport. The CredSSP handshake itself is done by an external package and not modelled; the sealing of CredSSP is covered by C22."
 ],
 "C48": [
  "proved",
  ""
 ],
 "C49": [
  "proved",
  ""
 ],
 "C50": [
  "proved",
  ""
 ],
 "C51": [
  "partial",
  "False for an error response with an XML document that has no fault: a fault without code is raised and the status is lost (C51_document_false). Fault documents, other texts and 401 behave as stated."
 ],
 "C52": [
  "proved",
  ""
 ],
 "C53": [
  "partial",
  "C53_log_partial and C53_turns_partial cover every history of open and close calls with any outcomes, for create responses whose selectors have names; C53_malformed_false shows a shell that is created and never deleted otherwise. C53_selectors: the delete names the selectors of the response. C53_stale_false: a response without selectors keeps the old ones."
 ],
 "C54": [
  "partial",
  "C54_output and C54_polls hold for every grouping, interleaving and number of timeouts. The exit code is the one of the last response (C54_rc_partial); one reported earlier is overwritten by None (C54_rc_false)."
 ],
 "C55": [
  "partial",
  "C55_items_partial and C55_installed_partial for every file and every payload limit of at least 84 bytes. Below that the buffer size is 0 and a file is sent as an empty one (C55_small_false), or negative and the file is sent in one item (C55_negative_false)."
 ],
 "C56": [
  "partial",
  "C56_replaced, C56_kept and C56_success for all items and faults. The temporary file is removed for all items in base64 (C56_temp_partial); an item that is not leaves it (C56_temp_false). C56_lost: the old file is deleted before the move, which may fail."
 ],
 "C57": [
  "partial",
  "C57_installed for every output and fault. The installed bytes are the decoded ones if os.write writes all of them (C57_bytes_partial); its result is not checked (C57_write_false). The temporary file is removed unless closing or removing it fails (C57_temp_partial, C57_temp_false)."
 ],
 "C58": [
  "partial",
  "C58_exact: for all reads a fetch that succeeds has stored the file, up to an explicit SHA1 collision. C58_stored_partial: it succeeds for files that are not empty and read at once. Empty files (C58_empty_false) and partial reads (C58_read_false) fail."
 ],
 "C59": [
  "partial",
  "False for the provider ntlm when the server offers Kerberos and NTLM (C59_ntlm_false); true in all other cases. An offer is the name anywhere in the header (C59_realm)."
 ],
 "C60": [
  "proved",
  "C60_exchange for all contexts and outcomes; C60_other_scheme shows that the token is taken from the first of the three schemes in the header."
 ],
 "C61": [
  "partial",
  "Proved for proper use of scope objects; entering the same object again while it is open breaks the claim (C61_reentered_false)."
 ],
 "C62": [
  "proved",
  "For every host (any methods, with or without user interfaces). C62_no_host: without a host an unknown id fails the receive, because the log line formats the method name."
 ],
 "C63": [
  "proved",
  "Values are natural numbers."
 ],
 "C64": [
  "proved",
  "For text arguments that are strings; C64_null: a null line raises TypeError and writes nothing. Concerns the default host."
 ],
 "C65": [
  "proved",
  "The standard library's IPv6 parser is a parameter; host names contain no colon and do not start with a bracket."
 ],
 "C66": [
  "partial",
  "C66_rc for every successful run. C66_deleted_partial for every failure point after the open. False parts: the process is not ended on failure (C66_signal_false), a malformed create response leaves the shell (C66_open_false), -1 despite an earlier code (C66_rc_false)."
 ],
 "C67": [
  "proved",
  "For every environment, script and negotiated protocol version."
 ],
 "C68": [
  "proved",
  ""
 ],
 "C69": [
  "proved",
  ""
 ],
 "C70": [
  "proved",
  ""
 ],
 "C71": [
  "proved",
  ""
 ],
 "C72": [
  "partial",
  "Proved for shells without an id of their own and responses that report no idle timeout and repeat resource and streams if they name them. False otherwise: C72_idle_false, C72_id_false."
 ],
 "C73": [
  "partial",
  "Proved for lines that do not make an escape where they meet and without the pattern of C13. False otherwise: C73_joined_false. The XML parser is an arbitrary function."
 ],
 "C74": [
  "partial",
  "Proved for configuration names up to 217 bytes (send), 71 bytes (command), 116 bytes (create, less with no_profile or an idle timeout), ids of up to 36 bytes. False otherwise: C74_create_false, C74_configuration_false."
 ],
 "C75": [
  "proved",
  ""
 ],
 "C76": [
  "proved",
  ""
 ],
 "C77": [
  "partial",
  "Proved for texts of characters that XML has and without carriage returns. False otherwise: C77_carriage_return_false, C77_control_false. The reader is a specification of the part of XML 1.0 that is needed."
 ],
 "C78": [
  "partial",
  "Proved for timeouts other than 0; the relation of read timeout and operation timeout is not enforced: C78_zero_false, C78_default_false."
 ],
 "C79": [
  "partial",
  "Proved for 46 of the 50 classes of the table (all but HostInfo, its data and the two error records, which are false: C79_host_false, C79_error_false) and for attributes that are None, text, characters, booleans, integers, non-empty bytes, GUIDs, undecoded texts, plain values, lists, dictionaries and objects of readable classes. Missing: bound parameters (false, C79_parameters_false), DateTimes (false, C79_time_false), floats, secure strings, generic objects as attributes."
 ],
 "C80": [
  "proved",
  "For all documents. The limits of reading in class order (type names in skipped or later elements, objects by reference) are proved as C80_types_false, C80_order_false and C80_reference_false."
 ],
 "C81": [
  "partial",
  "Proved for all classes but error records and cultures, of which it is false (C81_error_false, C81_culture_false, for all arguments), and host information, which is computed (C82). C81_received_partial has the limits of C79."
 ],
 "C82": [
  "proved",
  "Values are read back through the model of the serializer and deserializer; XML text as in C12 and C77."
 ],
 "C83": [
  "partial",
  "Proved for plain parameter values (scalars, lists of scalars, dictionaries), any sequence of building calls, any host and version. Missing: objects as parameter values, which is false when one is used twice, and the state STA when the pool has another one, which is false of the code."
 ],
 "C84": [
  "partial",
  "Proved for every document of the serializer without forbidden characters: packed, fragmented, reassembled, decoded and parsed to the same document (C84_document, C84_message); values for plain input and output, attributes for the 26 kinds whose class can be read (C84_object_partial). Missing: END_OF_PIPELINE_INPUT and CONNECT_RUNSPACEPOOL without limits (false), nested output objects without mandatory properties (false), and what C15, C79 and C83 miss."
 ],
 "C85": [
  "partial",
  "proved for all listings, answers and requests: the pools found, the requests sent, connecting, disconnecting, reconnecting, closing and connecting a pipeline; the connection data arrives if each message fits one block. Missing, because false of the code: the configuration of the shell, shells of other kinds, requests before connecting, the server's command id, long listings, longer messages (each refuted)."
 ],
 "C86": [
  "partial",
  "Session set up from the arguments, as requests uses it. Missing where false: verification with None or an empty path, the documented service, netrc with certificates, basic credentials outside Latin-1 or with a colon in the name."
 ],
 "C87": [
  "partial",
  "Without a proxy, after any proper run of scopes, a connection is refused exactly while disabled. False through a proxy and for redirects."
 ],
 "C88": [
  "partial",
  "Context arguments, host and channel binding proved for ASCII names and IPv6 addresses. False for names outside ASCII and after redirects; zones and credentials in addresses are not modelled."
 ],
 "C89": [
  "partial",
  "proved for all texts of whole numbers, given limits and errors; false without a limit in the answer, for pools made before, and for 150 KiB with protocol 2.2"
 ],
 "C90": [
  "partial",
  "proved for details without commas, for status and content, for states with names, for scripts; false for code 0, commas, unnamed states"
 ],
 "C91": [
  "partial",
  "Any program as body; the shell is deleted and the result is the body's, execute_ps is exact. Missing because false of the code: opening that fails after the shell was made, pools called broken by the server, pipelines that still run when the statement is left."
 ],
 "C92": [
  "partial",
  "Bytes to messages, execute_ps on bytes, and the documents of pool state, limits, capability, pipeline state, availability and key; the objects that a script writes are in C96, host calls in C98. Missing: events as documents."
 ],
 "C93": [
  "partial",
  "Request, run and result for all inputs. Missing because false of the code: the type as an object, failed pipelines, the count, strings. A request with arguments for the server is covered by C81_received_partial only; type, output type and parameters are whatever the reader makes of these objects."
 ],
 "C94": [
  "proved",
  ""
 ],
 "C95": [
  "proved",
  ""
 ],
 "C96": [
  "partial",
  "Proved for all documents of the relation: primitives, objects, lists and dictionaries with any type names and references, as elements and as message bytes, and the fallback for incomplete objects. Missing, because false of the code: containers in arrays, enumerables, primitives with properties, escapes in names (each refuted); numbers with fractions, queues and stacks are not in the relation."
 ],
 "C97": [
  "partial",
  "both messages in full for every host, pool, command list and version; parameters whose values are objects are outside, and STA for a pool with another apartment state (ignored by the code, C83_apartment_false)"
 ],
 "C98": [
  "partial",
  "Reading and answering are proved. False of colors without a name and of the record of WriteProgress; lists and secure strings as arguments are not modelled."
 ],
 "C99": [
  "proved",
  ""
 ]
}
