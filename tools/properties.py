import json
P=[]
def p(title,statement,quant,why,anchors):
    P.append(dict(id="C%02d"%(len(P)+1),title=title,statement=statement,quantifier=quant,why_tests_cant=why,anchors=anchors))

# --- grammar / parser
p("The parser accepts exactly the documented statement grammar",
  "A request text is accepted as a statement with actor A, message name M and argument list L if and only if the grammar documented at the top of grammar.h (spaces, actor, whitespace, unary or keyword message, spaces, ';', spaces) derives the text with exactly that A, M and L; every other text is answered with 'SyntaxError: invalid statement.'.",
  "every byte string given as a request, every actor/message/argument decomposition",
  "The set of byte strings is infinite and the recognizer (backtracking) and the extractor (greedy loops) are two different algorithms that must agree on all of them.",
  ["src/grammar.cpp: Grammar::is_statement, is_keyword_message","src/parser.cpp: Parser::Parser"])
p("Parsing never reads outside the request text and always terminates",
  "Constructing a parser on any input finishes, never indexes beyond the terminator of the string, and never throws anything other than the syntax error.",
  "every byte string",
  "The extraction loops have no bounds check; only the agreement with the recognizer on every input keeps them in bounds.",
  ["src/parser.cpp: Parser::Parser"])
p("Statements are unambiguous",
  "No request text has two different readings: two derivations of the same text in the documented grammar have the same actor, the same message name and the same arguments.",
  "every byte string and every pair of derivations",
  "Ambiguity is a statement about all pairs of derivations of all texts (string literals may contain spaces, colons, semicolons and escaped quotes).",
  ["src/grammar.h","src/parser.cpp: Parser::Parser"])
p("White space between tokens is irrelevant",
  "Replacing any run of separating white space by any other non-empty run, and adding white space before the actor, after each keyword colon, around the semicolon, does not change the effect or the reply of a statement.",
  "every well-formed statement, every choice of white-space runs, every context state",
  "Infinitely many layouts of infinitely many statements.",
  ["src/parser.cpp: Parser::Parser","src/context.cpp: Context::execute"])
p("Integer and float literals are exactly the documented regular expressions",
  "A text is accepted as an integer literal iff it is an optional sign followed by one or more decimal digits; as a float literal iff it is an optional sign, digits with at most one point and at least one digit, and an optional 'e' followed by an integer literal.",
  "every byte string",
  "The accepting loops count points and digits; equivalence with the regular expression is over all strings.",
  ["src/grammar.cpp: is_integer_value, is_float_value"])
p("String literals end at the first unescaped quote",
  "A text is a string literal iff it is an opening quote, a body in which every quote is preceded by an odd number of backslashes and which does not end in an odd number of backslashes, and a closing quote; hence no proper prefix of a string literal is a string literal.",
  "every byte string",
  "Backslash parity of arbitrary length runs cannot be enumerated.",
  ["src/grammar.cpp: is_string_value"])
p("Variable names are well formed and never reserved words",
  "Every variable that exists has a name of the form identifier or identifier::identifier where neither part is a reserved word, in every state the server can reach.",
  "every history of requests",
  "Quantifies over all reachable states.",
  ["src/grammar.cpp: is_identifier, is_variable","src/context.cpp: execute_in_type"])
p("Every accepted statement is dispatched to exactly one kind of receiver",
  "The actor of an accepted statement is exactly one of: a type, the context, a variable, the connection; so no accepted statement is silently dropped and the order of the dispatch tests is irrelevant.",
  "every byte string that is a statement",
  "Disjointness of four infinite languages.",
  ["src/context.cpp: Context::execute","src/grammar.cpp: is_actor"])
# --- values
p("String values round-trip through set: and get",
  "After setting a string variable to any string literal, get returns byte for byte the same literal.",
  "every string literal, every reachable context with such a variable",
  "All literals, including arbitrary backslash/quote runs.",
  ["src/instance.cpp: StringInstance::op_set, representation","src/str_utils.cpp: escape, unescape"])
p("The printed form of a string determines its value",
  "Two string values with the same get reply are equal, for every value any sequence of operations can produce (un-escaping the printed form gives the value back).",
  "every pair of byte strings",
  "Injectivity over an infinite domain.",
  ["src/str_utils.cpp: escape, unescape"])
p("Which string values can be sent back as literals",
  "The reply to get on a string variable is itself a valid string literal denoting the same value exactly when the value has an even number of backslashes immediately before every quote and at its end; other reachable values (for instance after popBack) print as text the parser rejects.",
  "every byte string; plus one reachable counterexample state",
  "A characterization (iff) over all values.",
  ["src/instance.cpp: StringInstance::representation","src/grammar.cpp: is_string_value"])
p("Integers round-trip through their decimal form",
  "For every 32-bit integer n, get prints its canonical decimal form, that form is a valid integer literal, and setting a variable to it stores n; reading an integer literal in range (with optional sign and leading zeros) stores the number it denotes.",
  "every 32-bit integer and every in-range literal",
  "2^32 values, infinitely many spellings.",
  ["src/instance.cpp: IntegerInstance constructors, representation"])
p("Integer arithmetic is exact, although it is computed in double precision",
  "add:, subtract: and multiplyBy: with an integer literal produce the exact mathematical result whenever it fits in 32 bits; divideBy: a non-zero integer literal produces the quotient truncated toward zero whenever it fits.",
  "every pair of 32-bit integers",
  "2^64 operand pairs per operation, through IEEE double rounding.",
  ["src/instance.cpp: IntegerInstance::op_add, op_subtract, op_multiplyBy, op_divideBy"])
p("When integer operations are undefined",
  "An integer operation with an integer literal has undefined behaviour exactly when the literal is outside the 32-bit range, the mathematical result is outside the 32-bit range, or a divisor is zero.",
  "every pair of an integer state and a literal",
  "Exact characterization over all operands.",
  ["src/instance.cpp: IntegerInstance::op_*"])
p("Booleans and characters round-trip",
  "After set: with a boolean or character literal, get returns the same literal; isTrue? and isFalse? are complementary.",
  "every literal, every reachable context",
  "All reachable contexts.",
  ["src/instance.cpp: BooleanInstance, CharacterInstance"])
p("Comparisons of integers, characters, booleans and strings are total orders",
  "For integers, characters (signed bytes) and strings (byte-wise lexicographic) exactly one of less, equal, greater is reported; equality is reported only for identical values; less-than is transitive; <= is (< or =), >= is (> or =), and x < y iff y > x.",
  "every pair and triple of values",
  "Infinite domains.",
  ["src/instance.cpp: InstanceIs*Comparator"])
p("Float comparisons are mutually exclusive and mirror-symmetric",
  "With a non-negative tolerance exactly one of isLessThan?, isEqualTo?, isGreaterThan? answers true for any two floats (also infinities and NaN), and x < y iff y > x.",
  "every pair of single-precision values, every non-negative tolerance",
  "2^64 pairs times 2^31 tolerances, through rounding of the difference.",
  ["src/instance.cpp: InstanceIsLessThanComparator, InstanceIsGreaterThanComparator"])
p("Float ordering is a strict weak order when the tolerance is zero, and is not one otherwise",
  "With tolerance 0 and no NaN the float order is the order of the real numbers; with every finite positive tolerance e it is not a strict weak order (-e, 0 and e: neighbours are equal, the ends are not), so sets, dictionaries and sort over floats have undefined behaviour on some data; with an infinite tolerance all floats are equal.",
  "every triple of single-precision values; every tolerance",
  "Triples of floats.",
  ["src/instance.cpp: InstanceIsLessThanComparator","src/context.cpp: op_setFloatComparisonTolerance"])
p("A NaN float compares equal to everything",
  "Once a float variable holds NaN (reachable with infinities), isEqualTo? answers true for every argument and isLessThan?/isGreaterThan? answer false.",
  "every argument literal; reachable witness",
  "All arguments.",
  ["src/instance.cpp: FloatInstance"])
# --- containers
p("Vectors behave as lists",
  "Every vector message behaves as the corresponding list operation on the sequence of its elements: reads return the addressed element/slice/count/indices, updates produce the list with exactly that change, and out-of-range indices are refused without any change.",
  "every vector content, every message and argument list",
  "All lists, all indices.",
  ["src/instance.cpp: VectorInstance::*"])
p("Sorting a vector",
  "sort leaves a permutation of the elements in non-descending order; for integers, characters, booleans and strings the result is the unique such permutation whatever algorithm the library uses, and sorting twice equals sorting once.",
  "every vector content, every conforming sort implementation",
  "All lists and all library implementations.",
  ["src/instance.cpp: VectorInstance::op_sort"])
p("Vectors can be used as queues, stacks and are reversed by reverse",
  "popBack undoes pushBack, popFront undoes pushFront and returns the element; elements pushed at the back are popped from the front in order; reverse twice is the identity.",
  "every vector content, every sequence of pushes",
  "All histories.",
  ["src/instance.cpp: VectorInstance::op_pushBack, op_popFront, op_reverse"])
p("Sets behave as mathematical sets",
  "After any sequence of add:, remove: and clear, contains? answers true iff the last of these operations affecting the element added it; get lists every element once in ascending order; size is the number of distinct elements.",
  "every history on a set of integers, characters, booleans or strings",
  "All histories.",
  ["src/instance.cpp: SetInstance::*"])
p("Dictionaries behave as finite maps",
  "After any sequence of associateValue:withKey:, removeKey: and clear, getValueForKey: returns the value last associated with the key or null, containsKey? agrees, keys are listed once in ascending order, keys and values correspond position by position, size is the number of keys.",
  "every history on a dictionary with non-float keys",
  "All histories.",
  ["src/instance.cpp: DictionaryInstance::*"])
p("Containers are strongly typed",
  "In every reachable state every element of a vector or set, and every key and value of a dictionary, has the declared element type, and integers are in the 32-bit range; the reply 'cannot compare these two types' never occurs.",
  "every history of requests",
  "All reachable states.",
  ["src/instance.cpp: get_shared_instance, InstanceIsLessThanComparator"])
p("Printed containers determine their contents",
  "Two vectors (or sets, or dictionaries) of the same non-float element type with the same get reply have the same contents, even when string elements contain commas, quotes and brackets. If both servers print 46 or more decimals (the same number), this holds for float elements, keys and values too.",
  "every pair of contents",
  "Injectivity over infinite domains.",
  ["src/instance.cpp: vector_representation, SetInstance::representation, DictionaryInstance::representation"])
p("Strings behave as byte sequences",
  "Every string message behaves as the corresponding operation on the byte sequence (first, last, substring, insert, erase, pop, concatenate, startsWith?, endsWith?, length), and out-of-range indices are refused without any change.",
  "every string value, every message and argument list",
  "All strings, all indices.",
  ["src/instance.cpp: StringInstance::*"])
# --- context
p("A statement addressed to one variable affects only that variable",
  "A statement whose actor is a variable leaves every other variable and the context settings unchanged, and whether it succeeds and what it replies depends only on that variable and the settings.",
  "every context, every statement",
  "All contexts and statements.",
  ["src/context.cpp: execute_in_variable"])
p("Creation never overwrites",
  "create: on an existing name is refused with 'variable name already used' and changes nothing; createIfNotExists: on an existing name replies null and changes nothing; on a fresh name both add exactly that one variable.",
  "every context, every creation statement",
  "All contexts.",
  ["src/context.cpp: execute_in_type"])
p("Deletion removes exactly what is named",
  "deleteVariable: removes exactly the named variable (or reports that it does not exist); deleteVariablesOfNamespace: removes exactly the variables whose namespace is the given one; later use of a removed name reports that it cannot be resolved.",
  "every context, every name and namespace",
  "All contexts.",
  ["src/context.cpp: op_deleteVariable, op_deleteVariablesOfNamespace"])
p("Listings are exact and sorted",
  "listVariables lists exactly the existing names, once each, in ascending byte order; listVariablesOfNamespace: exactly those of that namespace; listNamespaces exactly the namespaces in use, once each, ascending.",
  "every reachable context",
  "All reachable states.",
  ["src/context.cpp: op_listVariables, op_listVariablesOfNamespace, op_listNamespaces"])
p("A refused statement changes nothing",
  "If the reply to a statement is one of the error texts, all variables and settings are exactly as before.",
  "every context, every request text, every session state",
  "All contexts and requests.",
  ["src/context.cpp: Context::execute","src/instance.cpp: op_*"])
p("Questions do not change anything",
  "A statement whose message contains a '?' keyword (isEmpty?, contains?, isLessThan?, ...), or is a read message (get, size, length, keys, values, first:, last:, atIndex:, count:, slices, listings), leaves all variables and settings unchanged.",
  "every context, every such statement",
  "All contexts and statements.",
  ["src/instance.cpp: receive","src/context.cpp: execute_in_context"])
p("Error replies are recognizable",
  "A reply to a request starts with one of the upper-case letters A, R, S iff it is one of the error texts; successful replies never collide with error texts.",
  "every context, every request text",
  "All replies.",
  ["src/exceptions.h","src/context.cpp: Context::execute"])
p("Replies are single lines",
  "As long as request texts contain no newline byte, no reply contains a newline byte, so on the wire every reply is exactly one line.",
  "every history of newline-free requests",
  "All histories: replies echo stored bytes.",
  ["src/context.cpp: Context::execute","src/server.cpp: Session::do_write"])
p("The reply 'unknown error' never occurs",
  "No request makes an unexpected exception escape to the catch-all: the reply is never 'RuntimeError: unknown error.'.",
  "every reachable context, every request",
  "Absence of a behaviour.",
  ["src/context.cpp: Context::execute"])
p("Settings are kept and validated",
  "setFloatPrecision: accepts exactly positive integers and getFloatPrecision returns the last accepted one; floats print with exactly that many decimals; setFloatComparisonTolerance: accepts exactly non-negative values and getFloatComparisonTolerance returns the last accepted one; no other statement changes the settings.",
  "every context, every statement",
  "All statements.",
  ["src/context.cpp: op_setFloatPrecision, op_setFloatComparisonTolerance","src/instance.cpp: FloatInstance::representation"])
p("One log record per request",
  "Every executed request appends exactly one record, the trimmed request and the reply, to the log file (or standard output when no log file is open and quiet mode is off), and nothing otherwise.",
  "every history",
  "All histories.",
  ["src/context.cpp: Context::execute"])
p("Undefined behaviour has only known causes",
  "From any reachable state, a request can only have undefined behaviour through an integer conversion or result out of range, an ordering of floats that is not a strict weak order, or a Connection statement executed without a connection.",
  "every reachable context, every request",
  "All requests.",
  ["src/instance.cpp","src/context.cpp"])
# --- server
p("Unauthenticated connections can neither read nor change data",
  "On a server with a password, whatever an unauthenticated connection sends, the variables and settings are unchanged and the replies do not depend on the stored data.",
  "every interleaving of any number of connections, every byte stream",
  "All schedules and streams.",
  ["src/server.cpp: Session::do_read, Session::receive"])
p("Only the correct password authenticates, and only that connection",
  "A connection is authenticated iff the server has no password or that same connection has executed authenticateWithPassword: with a literal denoting exactly the server password; authentication is never lost and never leaks to another connection.",
  "every interleaving",
  "All schedules.",
  ["src/server.cpp: Session::receive"])
p("Which passwords can be entered at all",
  "A server password can be presented by some request line iff it contains no newline byte and has an even number of backslashes before every quote and at its end (and so, e.g., a password ending in one backslash locks everybody out).",
  "every password",
  "Iff over all byte strings.",
  ["src/server.cpp: Session::receive","src/grammar.cpp: is_string_value"])
p("Requests of a connection are answered in order, one reply line per request line",
  "For every schedule, the replies written to a connection are, in order, the replies to the first n complete lines of the bytes it sent, for some n; splitting the bytes into packets differently does not matter; an unterminated last line is never executed.",
  "every interleaving, every packetization",
  "All schedules and packetizations.",
  ["src/server.cpp: Session::do_read, do_write"])
p("Concurrent connections are serialized",
  "Every schedule of any number of connections is equivalent to executing complete requests one at a time in some order that respects each connection's own order and the order of time; conversely every such order of requests whose replies are short enough to be written is what some schedule does.",
  "every interleaving",
  "All schedules.",
  ["src/server.cpp","src/context.cpp"])
p("After close nothing more is executed or answered",
  "Once a connection has executed 'Connection close;' no further line from it is executed and nothing is written to it (not even the reply to close).",
  "every interleaving",
  "All schedules.",
  ["src/server.cpp: Session::receive, do_read"])
p("The server keeps accepting connections unless an accept fails",
  "As long as no accept operation reports an error the server has an accept pending; after one failed accept it never accepts again.",
  "every event history",
  "All histories.",
  ["src/server.cpp: Server::do_accept, handle_accept"])
p("A reply of 65536 bytes or more is never delivered",
  "A reply whose line (with its newline) is longer than 65536 bytes, or that the kernel does not take in one piece, is never delivered completely: its pending write ends in an error or in undefined behaviour (the buffer handed to the asynchronous write has been destroyed). Every shorter reply can be delivered, and then appears on the wire exactly once. In every history a request with such a reply is the last one executed on its connection; all replies before it have been delivered, nothing after them.",
  "every server state with a pending write",
  "A destroyed buffer usually still holds the right bytes, so tests pass.",
  ["src/server.cpp: Session::do_write"])
p("The server is never stuck",
  "In every reachable state of the server, a live connection that is reading and has a complete line can execute it, and a connection with a pending reply can have it completed; other connections cannot prevent this.",
  "every interleaving",
  "All schedules.",
  ["src/server.cpp: Session::do_read, do_write"])
p("Every error reply has exactly its documented cause",
  "'invalid message' is the reply iff the receiver exists and does not understand the message; 'wrong number of arguments' iff it understands it with another number of arguments; 'variable name already used' iff an existing variable is created (not with createIfNotExists:); 'name cannot be resolved' iff the receiver or the variable to be deleted does not exist; 'wrong password' iff the connection is offered another password; 'invalid argument' only if an argument is malformed or its value (index, count, precision, tolerance) is not allowed, and always then unless some argument is an integer out of range.",
  "every request in every reachable state",
  "Infinitely many requests and states; eight dispatch tables with a hundred operators that each validate on their own.",
  ["src/instance.cpp: receive and op_*","src/context.cpp: execute_in_type, execute_in_context, execute_in_variable","src/server.cpp: Session::receive"])
p("Clients that use different variables cannot notice each other",
  "A request's reply and effect depend only on the settings and the variables it touches (its receiver, the variable it creates, deletes or lists), and it changes only those; so requests touching different variables commute, and a group of connections that shares no variable with the others (for instance by using its own namespace) gets, under every schedule, exactly the replies it would get alone, provided the others do not change the settings.",
  "every interleaving, every partition of the connections and of the names",
  "All schedules and all requests; interference through a shared structure only shows for particular pairs.",
  ["src/context.cpp: execute_in_type, execute_in_context, execute_in_variable","src/server.cpp: Session::do_read"])
p("Logging does not influence the service",
  "Two servers that differ only in their log file, quiet flag and past log records give the same replies to the same requests and end with the same data.",
  "every request history",
  "All histories; log code runs on every request.",
  ["src/context.cpp: Context::execute"])
p("When the process ends",
  "The server process ends exactly when an accept operation has failed and every accepted connection has ended (by its own close or by an error); as long as no accept fails it never ends, and as long as it has not ended some event can still happen.",
  "every event history",
  "All histories; failing accepts are hard to provoke.",
  ["src/server.cpp: Server::run, do_accept","src/knuckleball.cpp: main"])
p("Float literals mean the number they write, correctly rounded",
  "Every float literal writes exactly one rational number; creating or setting a Float stores that number rounded to nearest-even to double and then to float, with the sign of the literal; the result is exact if the number is a float, has a relative error of at most 2^-24 + 2^-52 if it is finite and of magnitude at least 2^-125, preserves order, and is an infinity exactly for numbers that round beyond the largest float. A non-integer literal given to an Integer is truncated toward zero.",
  "every float literal, of any length and exponent",
  "The literals are infinitely many; rounding errors show only at midpoints.",
  ["src/instance.cpp: FloatInstance constructors and op_set, IntegerInstance constructors and op_set"])
p("Printed floats are the nearest decimals, and with enough of them identify the value",
  "get of a finite Float replies the decimal number with exactly as many decimals as the precision that is nearest to the value (ties to even), with the value's sign; the reply is itself a float literal within half a unit of the last decimal; from precision 149 on it is exact; from precision 46 on giving the reply to set: restores exactly the same value, and so it does at smaller precisions for values large enough. Infinities and NaN print as texts that are not literals.",
  "every float value, every precision",
  "2^32 values times all precisions.",
  ["src/instance.cpp: FloatInstance::representation, op_get"])
p("Float arithmetic is correctly rounded double arithmetic",
  "add:, subtract:, multiplyBy: and divideBy: of a Float give the exact rational result of the value and the literal's double, rounded once to double and once to float, with IEEE 754 infinities, NaN and signed zeros; there is exactly one such result. On an Integer with a non-integer literal the double result is truncated, and undefined exactly if that does not fit 32 bits.",
  "all values and literals",
  "The pairs cannot be enumerated.",
  ["src/instance.cpp: FloatInstance::op_add, op_subtract, op_multiplyBy, op_divideBy","src/instance.cpp: IntegerInstance::op_add, op_subtract, op_multiplyBy, op_divideBy"])
p("Float comparisons compare the rounded difference with the tolerance",
  "Each of the five comparisons of a Float (or an Integer with a non-integer literal) answers according to whether the float difference of the two values is below minus the tolerance or above it; whenever isLessThan? or isGreaterThan? answers true, the exact values really differ by more than the tolerance in that direction.",
  "all values, literals and tolerances",
  "The triples cannot be enumerated.",
  ["src/instance.cpp: InstanceIsLessThanComparator and its siblings, FloatInstance::op_isLessThan and its siblings","src/context.h: get_float_comparison_tolerance"])
p("Classes of characters",
  "isAlphabetic?, isNumeric?, isAlphanumeric? and isSpace? of a Character reply true exactly for the 52 ASCII letters, the ten digits, both, and the six ASCII blanks respectively, and change nothing; bytes from 128 on belong to no class.",
  "every character value, every state",
  "Every byte has to be tried against every question in every state; locale-dependent classification and negative char values go wrong only for bytes tests do not send.",
  ["src/instance.cpp: CharacterInstance::op_isAlphabetic, op_isNumeric, op_isAlphanumeric, op_isSpace"])
p("The work of the parser is bounded by a cubic polynomial, and reaches it before authentication",
  "Parsing any text of n bytes ends after at most 20(n+1)^3 elementary steps, and after at most 25(n+1)^2 if the text is a statement, although the recognizer tries all splits recursively; there are invalid request lines of length 5m+4 that take at least m^3 steps, and any client can make the server parse them without having authenticated, before it is answered that it is not; no event makes the server's parser take more than 40(n+1)^3 steps for n bytes of unread input.",
  "every text of every length",
  "Worst cases of a recursive recognizer are not found by sampling, and a polynomial bound is a statement about all lengths.",
  ["src/grammar.cpp: is_keyword_message and its callees","src/parser.cpp: Parser","src/server.cpp: Session::do_read"])
p("Storage is bounded by requests times bytes, replies are not",
  "Each request adds at most one object (variable, element or association), so k requests make at most k; in a server started empty every stored name and text is at most as long as all bytes received, and the stored text is at most 2 * requests * bytes; this product is reached up to a constant factor (replaceAll:with:). The length of a reply has no bound in terms of what was sent: three short requests (setFloatPrecision:) make a reply of any length up to two gigabytes.",
  "every history of requests, of any length",
  "A bound on memory is a statement about all histories.",
  ["src/context.cpp: Context::execute","src/instance.cpp: VectorInstance::op_replaceAll_with, FloatInstance::representation"])
p("Exactly which data a server can hold, and it can always be copied by requests",
  "The variables of a server are, after any history, names of variables in ascending order with values of these forms: 32-bit integers, single precision floats, any byte string, and containers whose elements have a literal (never NaN, no string with an odd run of backslashes before a quote or at the end), sets and keys strictly ascending; and every such collection of variables is reachable. An explicit list of requests computed from the data, sent to any empty server, makes it hold the same variables (and settings, if these can be requested at all: a positive 32-bit precision, a tolerance that is neither negative nor NaN), all requests being answered null; from then on both servers answer every sequence of requests alike.",
  "every reachable state, every collection of variables",
  "The set of reachable states is infinite, and copying has to work for each of them, including infinities, NaN, signed zeros and strings without a literal.",
  ["src/context.cpp: Context::execute, execute_in_type","src/instance.cpp: all constructors and op_ functions","src/instance.h: representation"])
p("With tolerance zero floats are compared as numbers and nothing about their order is undefined",
  "Whenever the comparison tolerance is zero, whatever it was before: no request is undefined because of float order; contains?, add:, remove: of Float sets and containsKey?, getValueForKey:, associateValue:withKey:, removeKey: of dictionaries with Float keys treat exactly the equal numbers as the same (0 and -0 are one, infinities equal themselves); sort orders by number. At any tolerance a Float set is listed in strictly ascending order of numbers and never contains NaN.",
  "all reachable states with tolerance zero, including those filled at other tolerances",
  "Needs all histories of tolerance changes and all float values.",
  ["src/instance.cpp: InstanceIsLessThanComparator and its siblings, SetInstance, DictionaryInstance, VectorInstance::op_sort"])
p("The log file can be read back and replayed",
  "If the log files of two servers have the same text (whatever the time stamps), the same requests got the same replies in the same order, although requests and replies may themselves contain the separator ' -> '; sending the logged requests again (except those to Connection) to a server with the original data, from any session, gives the logged replies and the same data; so the text of the log determines the data. If a session of a server with a password is authenticated, the log contains the password in clear.",
  "every history of requests without newlines (all that arrive over the network), every interleaving of clients",
  "Whether two different histories can have the same log text is a question about all pairs of histories, with requests and replies chosen by an adversary.",
  ["src/context.cpp: Context::execute (log line)","src/str_utils.cpp: trim","src/server.cpp: Session::do_read"])
p("Starting the server",
  "The server serves exactly if the command line is valid, help is not asked for, a port is given and can be bound; it starts with no variables. Without a password option every connection is authenticated from the beginning and a single short request causes undefined behaviour; with a password undefined behaviour in handling requests needs a client that has presented the password. The default settings are answered as 3 and 0.000, the tolerance being the single nearest to 1e-7. A log file that cannot be opened is not reported: nothing is written to it, and in quiet mode there is no log at all.",
  "every command line, every sequence of events after the start",
  "The statements are about everything clients may do after the start.",
  ["src/knuckleball.cpp: main","src/context.cpp: Context::Context","src/server.cpp: Server::Server, Session::Session"])
p("The reference manual is right",
  "Every receiver a client can address (types, variables, Context, Connection) is the subject of exactly one section of the reference of README.md; it answers 'invalid message' exactly to the messages the manual has no entry for, and 'wrong number of arguments' exactly if the number is not the documented one; with arguments of the documented kinds it answers 'invalid argument' only if an index, a count or a new setting is out of the domain; and every reply that is not an error is of the documented kind (only popBack, popFront and getValueForKey: may also answer null).",
  "all 140 entries of the manual, every reachable context, every request",
  "The manual's examples show one session per entry; the promise is about every value and every argument.",
  ["README.md: Reference","src/instance.cpp: receive and op_* of all classes","src/context.cpp: Context::receive, execute_in_type","src/server.cpp: Session::receive"])
p("Every request is eventually answered, whatever other clients do",
  "In an execution that goes on forever, if the operating system is fair to one connection (a completable read or write of it completes some time) then every line its client has sent is answered some time by one line of output, unless the connection ends; without network errors and without a request to close, all of them are answered. Nothing is demanded of the other clients: they may never read their replies or send endless lines.",
  "every infinite execution, every behaviour of the other clients",
  "Liveness is a statement about infinite executions and all schedules.",
  ["src/server.cpp: Session::do_read, Session::do_write, Server::do_accept"])
p("Names can be used as locks",
  "A name exists exactly if it has been created and not deleted since; create: and create:withValue: of it by an authenticated client are accepted exactly if it does not exist. So of two accepted creations of the same name, by whichever clients, a deletion came between: holding the name is mutual exclusion.",
  "every interleaving of every number of clients",
  "Races show in few schedules.",
  ["src/context.cpp: Context::execute_in_type, op_deleteVariable, op_deleteVariablesOfNamespace","src/server.cpp: Session::do_read"])
p("No update is lost",
  "Whatever clients do at the same time, an Integer that is only added to and subtracted from holds its first value plus everything that was accepted; a String that is only concatenated to holds all accepted texts in the order of the replies; a Vector used as a queue gives each pushed element to exactly one popper, in order.",
  "every interleaving of every number of clients and requests",
  "Lost updates show in few schedules.",
  ["src/context.cpp: Context::execute","src/instance.cpp: op_add, op_subtract, op_concatenate, op_pushBack, op_popFront"])
p("The order of updates that do not conflict does not matter",
  "If two histories contain the same accepted updates of a variable in different orders, the variable holds the same value after both: for an Integer that is added to and subtracted from; for a Set if no element is both added and removed; for a Dictionary if each key is associated with one value only or only removed. (Sets of Floats and dictionaries with Float keys excepted: there the order can matter, even with tolerance zero.)",
  "all pairs of histories",
  "A statement about all permutations of all histories.",
  ["src/instance.cpp: IntegerInstance, SetInstance, DictionaryInstance"])
p("Which requests can be repeated without harm",
  "A request that was carried out can be sent again by the same client with no further effect (and no undefined behaviour) if it was refused, or is a creation, a question, a message to Context or Connection, set: of any variable, clear, eraseFromIndex: of a String or Vector, removeAll:, replaceAll:with: or sort (not of Floats) of a Vector, add: or remove: of a Set, associateValue:withKey: or removeKey: of a Dictionary; a variable answers the same again. For every other message of every type there is a case where the second copy changes the data again (for sort of Floats: with some conforming sort algorithm).",
  "every reachable state, every request, including float containers at any tolerance",
  "Idempotence has to hold in all states; with tolerances it could fail for particular floats only.",
  ["src/instance.cpp: op_* of all classes","src/context.cpp: Context::receive, execute_in_type","src/server.cpp: Session::receive"])
p("Sizes fit in 32 bits as long as less than 2 GiB have been received",
  "In a server started empty, no stored name or string is longer, no container has more elements, and no connection's input buffer holds more than the number of bytes received so far, at all connections together. So as long as fewer than 2^31 bytes have been received every conversion of a size to int is exact. A client that has not authenticated can make the server hold any number of bytes for ever, by sending a line that it does not end.",
  "every sequence of events, every number of clients",
  "The sum over all clients of everything ever sent; no test sends gigabytes.",
  ["src/instance.cpp: op_length, op_size, op_atIndex, op_count and all other uses of size()","src/server.cpp: Session::do_read"])
p("How deep the parser recurses, and how much it holds meanwhile",
  "On a line of n bytes the recognizer of messages, the only recursive function, is active at most n/4+1 times at once, and the texts of the active calls have at most (n/4+1)*n bytes. This is the right order: there are lines of 5m+4 bytes which are refused after more than m calls were active at once, holding at least 2*m*m bytes.",
  "all byte strings",
  "A worst case over all lines; stack overflow depends on the line.",
  ["src/grammar.cpp: Grammar::is_keyword_message, Grammar::is_statement","src/parser.cpp: Parser::Parser"])
p("Everything stored can be observed, and nothing else",
  "Two reachable servers hold the same data (same variables with same types and values, same float precision and tolerance) if and only if no client can tell them apart by a sequence of requests and their replies. So no part of the data, e.g. a bit of a Float or the element type of an empty container, is stored that no sequence of requests can show, and nothing else, e.g. the log or the order of creation, influences any reply.",
  "all pairs of reachable states, all sequences of requests",
  "A statement about all pairs of states and all conversations; a test compares a few states by a few requests.",
  ["src/context.cpp: Context::execute","src/instance.cpp: op_get, representation of all classes","src/str_utils.cpp"])
p("What the float precision and the tolerance can influence",
  "Two servers that differ only in the float precision end every sequence of requests with the same data (again up to the precision), and even the replies are the same except to requests for the text of a float and for a setting. Two servers that differ only in the float comparison tolerance do the same to the data, except for requests that make a container look for a float or sort floats; apart from these, at most the replies to comparisons of floats differ.",
  "all pairs of states and all requests",
  "Non-interference is about all pairs of executions.",
  ["src/context.cpp: op_setFloatPrecision, op_setFloatComparisonTolerance","src/instance.cpp: comparators, representation and all op_* of all classes"])
p("Killing the process loses nothing that was answered, if there is a log file",
  "Whenever the process of a server with a log file is killed, between events or in the middle of writing a line of the log, the complete lines of the file are the log of all requests executed so far, in order, each with the reply that the client got or would have got, with at most the request just being handled more; in particular every request whose reply was written to a client is there. Sending the logged requests again, except those to Connection, to a new server with the same settings gives the logged replies and the data at the time of the crash; no request is recovered in part.",
  "every sequence of events, every crash point (between events and inside the writing of a log line)",
  "Crash points and interleavings cannot be enumerated by tests.",
  ["src/context.cpp: Context::execute (log line before the reply is returned)","src/server.cpp: Session::do_read, do_write"])
p("The name of a variable does not matter, and nothing refers to a variable by its name",
  "Rename variables by any injective map of names to names: a request about the renamed variables on the renamed data (messages to variables, creations, deletions, also of namespaces if the map respects them, settings, anything not listing names) is undefined exactly if the original is, and otherwise has the same reply and again leaves the renamed data; so do whole histories. Conversely names are not values: a message to a variable with the name of a variable among its arguments is always refused and changes nothing (unless another argument is a number out of range, which can be undefined behaviour).",
  "all injective renamings, all pairs of reachable states, all requests and histories",
  "Symmetry under all renamings is about pairs of executions over all names.",
  ["src/context.cpp: Context::execute_in_variable, execute_in_type, op_deleteVariable","src/instance.cpp: constructors and receive of all classes"])
p("Which messages undo which",
  "A table of pairs of messages, e.g. pushBack: / popBack, insert:beforeIndex: / popAtIndex:, add: of an Integer / subtract: as long as the result has 32 bits, add: of an element not in a Set / remove:, associateValue:withKey: / removeKey: or the association with the old value, concatenate: / eraseFromIndex:, set: / set: of the old value: the first message is accepted, and the second, sent immediately afterwards or after any other requests that do not concern the variable (even ones that change the settings), is accepted and gives the variable its old value; sent immediately it restores all the data. So does deleting a variable just created, and creating again a deleted one with its value.",
  "all reachable states and values, all arguments, all histories in between",
  "Inverses hold for all values and all interleaved histories or not at all; tests sample a few.",
  ["src/instance.cpp: op_pushBack, op_popBack, op_insert_beforeIndex, op_popAtIndex, op_add, op_subtract, op_remove, op_associateValue_withKey, op_removeKey, op_concatenate, op_eraseFromIndex","src/context.cpp: execute_in_type, op_deleteVariable"])
p("If the floats are far apart, the tolerance does not matter",
  "If the floats that a request can compare (those in the variable it addresses, as keys if it is a Dictionary, an Integer as a float, and the argument) are pairwise equal or at least twice the tolerance apart, then the request has no undefined behaviour because of the order of floats, and is executed with the same reply and effect as with any other tolerance for which they are far apart, in particular as with tolerance zero, where containers treat floats as numbers. (Except that a request for the tolerance is answered with it, and that sort only promises an ascending order of the same elements.)",
  "all reachable states, all pairs of tolerances that are not negative, all requests, all floats (also infinities and NaN)",
  "The comparison subtracts and rounds to float; that rounding never confuses numbers that are far apart concerns all pairs of floats.",
  ["src/instance.cpp: InstanceIsLessThanComparator, InstanceIsGreaterThanComparator, operators of Float, Integer, Vector, Set and Dictionary instances","src/context.cpp: op_setFloatComparisonTolerance"])
p("Printing is stable",
  "Whatever the precision is, if the reply of get for a finite Float is given to set: of a Float variable, then get of that variable replies the same text (even if the precision is too small for the text to identify the value). A Vector of any element type that is copied element by element, by giving the replies of atIndex: to pushBack: of an empty Vector of the same type, is printed like the original (if it contains no infinity). So reading and writing back does not let a value drift.",
  "all finite floats, all precisions, all vectors shorter than 2^31",
  "The text is rounded to double and to float when it is read, and rounded again when it is printed; that these roundings end in the same text for each of the 2^32 floats at each precision, ties included, follows from a distance between the powers of 2 and of 10.",
  ["src/instance.cpp: FloatInstance op_get, op_set, VectorInstance op_atIndex, op_pushBack","src/instance.cpp: FloatInstance::representation, vector_representation"])
p("What a client reads is what was last written, by whomever",
  "On a server used by any number of clients at the same time: if the last accepted message to a Boolean, Character, Integer, Float or String that is not a question was set:, then get answers every authenticated client the printed form of exactly the value that was set; contains? of a Set answers whether the last accepted message of any client about the element added it; getValueForKey: answers the value that was last associated with the key by any client, or null if the key was removed since or never associated. (Sets and dictionaries with Float keys excepted.)",
  "every interleaving of every number of clients and requests",
  "The reply must reflect the latest of all earlier requests of all clients in every interleaving; tests exercise a few interleavings of a few requests.",
  ["src/server.cpp: Session::do_read", "src/context.cpp: Context::execute, execute_in_variable", "src/instance.cpp: op_set, op_get, op_contains, op_getValueForKey"])
p("The server implements a small abstract machine",
  "The whole service is described by one abstract machine: what it knows is a map from names to values and two settings; each request, whatever its text, has the effect and the reply (value, list, or one of the errors) the machine prescribes and no other; if floats are not sorted and the request does not have both a malformed and an out-of-range argument, the prescribed outcome is the only one. Whatever any number of clients send and however it is interleaved, the replies they receive and what the server knows in the end are those of one execution of the machine, one request at a time; and every such execution of the machine is one of the interpreter.",
  "every text, every reachable state, every interleaving of every number of clients",
  "It is a refinement: all texts, in all states, in all interleavings, must be steps of the machine; tests compare a few.",
  ["src/server.cpp: Session::do_read, do_write", "src/context.cpp: Context::execute", "src/instance.cpp"])
p("Values, not references",
  "Elements and variables are reached through shared pointers, yet a client can only ever observe values: for every sequence of requests the program with pointers (copies, releases, in-place mutation, destruction of the last owner) gives exactly the replies the program on plain values gives. It uses or releases no instance that has already been destroyed: undefined behaviour has no other causes than those of the program on values.",
  "every sequence of requests, from any sessions, any settings, every sorting algorithm",
  "Use after free and aliasing depend on the history of copies and releases; tests see the few histories they run, and usually do not see a use after free at all.",
  ["src/instance.cpp: VectorInstance, SetInstance, DictionaryInstance, get_shared_instance", "src/context.cpp: execute_in_type, execute_in_variable, op_deleteVariable"])
p("Every instance has one owner",
  "Between requests, every pointer leads to a live instance, no instance is reachable in two ways (two variables, two positions of a container, a key and a value, two containers never share an element), and its count of owners is one; so a later message to one variable cannot change or destroy what another holds.",
  "every history of requests",
  "Sharing is invisible to a test until some later mutation or release happens to hit the shared instance.",
  ["src/instance.h: Instance", "src/instance.cpp: op_pushBack, op_insert_beforeIndex, op_replaceAll_with, op_add, op_associateValue_withKey", "src/context.cpp: execute_in_type"])
p("No memory leaks",
  "Between requests, the instances in memory are exactly those of the variables and their elements (two per association of a dictionary): instances made for arguments, for refused creations, or for values since removed, replaced or deleted are all destroyed; when all variables are deleted no instance is left.",
  "every history of requests, including those answered by errors",
  "A leak shows only as growth over long histories; that there is none on any path, including every error path, is a statement about all of them.",
  ["src/instance.cpp", "src/context.cpp: execute_in_type, op_deleteVariable, op_deleteVariablesOfNamespace"])
p("Sessions live as long as they are needed",
  "Between two completion handlers each connection has at most one operation pending (never two reads, two writes, or a read and a write of one socket), and that operation is the only owner of the session: the session exists exactly as long as the operation is pending. A closed, failed or refused connection's session is destroyed at once and for good, nothing is written to it any more, the number of sessions in memory is the number of pending reads and writes, and none is used after its destruction.",
  "every history of accepts, arrivals, completions and errors on any number of connections",
  "Lifetimes depend on the interleaving of handlers; a premature destruction or a leaked cycle of owners shows only in some schedules and then as a crash or as growth, not as a wrong reply.",
  ["src/server.cpp: Server::do_accept, Server::handle_accept, Session::do_read, Session::do_write", "src/server.h: Session", "src/context.cpp: Context::execute"])
p("A greater tolerance confuses more floats, never fewer",
  "Of two servers that differ only in the tolerance: whatever isLessThan? or isGreaterThan? answers with true with the greater tolerance, it answers with true with the smaller one; whatever isEqualTo?, isLessThanOrEqualTo? or isGreaterThanOrEqualTo? answers with true with the smaller tolerance, it answers with true with the greater one (Floats, and Integers compared with non-integers). A vector contains what it contained, counts at least as many, finds it at the same index or earlier, and removeAll: leaves a subsequence of what it would leave. A set contains what it contained and a dictionary has the same value for a key it had a value for, unless the floats in it cannot be ordered with the greater tolerance any more (undefined behaviour).",
  "all pairs of non-negative tolerances, also infinite, all values and arguments",
  "There are too many triples of two floats and a tolerance to test, and the differences are rounded; tests compare at one tolerance only.",
  ["src/instance.cpp: InstanceIsEqualToComparator, InstanceIsLessThanComparator, FloatInstance, IntegerInstance, VectorInstance, SetInstance, DictionaryInstance", "src/context.cpp: Context::op_setFloatComparisonTolerance"])
p("Which sort algorithm the library has cannot be observed",
  "std::sort may order tied elements as it likes. Still, two builds of the server with different conforming sort algorithms execute every request alike (same reply, same effect, same undefined behaviour), every sequence of requests alike, and end every history of network events in the same state, unless a vector of floats is sorted in which two different floats are tied. With tolerance zero the only such floats are 0 and -0, and these can really come out in different orders.",
  "all pairs of conforming sort algorithms, all states, requests, histories and schedules",
  "A test runs with one library and sees one algorithm's choice.",
  ["src/instance.cpp: VectorInstance::op_sort", "src/context.cpp: Context::execute", "src/server.cpp: Session::do_read"])
p("The password can only be found by guessing it",
  "As long as no client sends a line presenting one of two non-empty passwords, nothing that clients see tells which of the two the server was started with: the same events have the same effect on all connections, byte for byte, whatever data the servers hold. A single client that presents neither password learns nothing either when other connections are authenticated. So an attempt with a wrong password rules out that password and no other.",
  "all pairs of non-empty passwords, all event lists, all initial data",
  "Needs every password and every sequence of attempts; a comparison that leaks a prefix would pass any test with fixed passwords.",
  ["src/server.cpp: Session::receive, Session::do_read, Server::get_password"])
p("Float arithmetic with float arguments is single precision arithmetic",
  "Although add:, subtract:, multiplyBy: and divideBy: of a Float are computed in double precision and the result is rounded a second time to float, the result is that of the IEEE 754 single precision operation (the exact result rounded once) whenever the argument writes a number that a float can hold. So the result is exact whenever a float can hold the exact result, and adding or multiplying two Floats does not depend on which of them is the receiver. Literals, in contrast, are really rounded twice: there is one that is read as infinity although the nearest float is finite.",
  "all finite, infinite and NaN floats, all literals for floats, including subnormal values and overflow",
  "Rounding twice goes wrong only for rare values; the pairs of floats cannot be enumerated.",
  ["src/instance.cpp: FloatInstance::receive"])
p("Neither packets nor times of arrival matter",
  "How the network splits the bytes of clients and when they arrive does not matter beyond when reads complete: every history of the server has the same outcome (same data, same replies, same undefined behaviour if any) as the one with the same completions of accepts, reads and writes in the same order in which all bytes of each client arrive at once when it is accepted; so two histories with the same completions in the same order and the same bytes from each client have the same outcome. If only one client sends anything, not even the order of completions matters: in any two histories what it has received agrees as far as it goes, and once all its lines are answered the bytes it has received, the data and the log are equal.",
  "every list of events, every splitting and delay of the bytes, every number of clients",
  "The ways to split and delay input are unbounded; a handler that loses, repeats or reorders buffered bytes does so for particular splits only.",
  ["src/server.cpp: Session::read, Session::write, async_read_until"])
p("From the command line to the bytes on the wire",
  "The program as a whole, with its pointers, sessions and pending operations, started by a valid command line and driven by any events, conforms to the abstract machine started with no variables and the settings the command line asks for: there is one order of the requests clients sent (for each client the first lines of its bytes) such that the bytes written to every client are, line by line, the machine's replies to its requests, of each client all but perhaps the last, and the log file, if one was given and could be opened, has exactly the executed requests with these replies in this order. Undefined behaviour happens only at a request for which the machine has none but undefined behaviour, from a client that is authenticated or at a message to Connection, or if a write does not take the whole reply.",
  "every command line, every list of events, every number of clients, every sorting algorithm",
  "It is the conjunction of everything: all inputs, all schedules, all histories, all command lines.",
  ["src/knuckleball.cpp: main", "src/server.cpp: Server, Session", "src/context.cpp: Context::execute", "src/instance.cpp"])
p("Running out of memory does no harm beyond the request",
  "If allocations fail, whenever and however often, a request has its usual effect and reply, or its usual effect and a reply in which floats are cut short, or is answered 'RuntimeError: unknown error.'. In the last case nothing has changed, except that the messages popBack, popFront and popAtIndex: to a Vector of Strings or Floats may have taken the element out (its text is lost), and removeAll: to a Vector of Strings and replaceAll:with: may have stopped after some of the elements; nothing but the Vector they were sent to is affected. So a reply other than that error can be relied on. The process can end (if memory also runs out while the error or the log record is made), and only sorting a Vector of at least two Strings can leave elements unspecified; there is no undefined behaviour but for the usual causes. Whatever happened, nothing is leaked or shared in memory, the data is data a server with enough memory can have, and later requests are answered accordingly. Without failures everything is as usual.",
  "all sequences of requests from any sessions, every pattern of failing allocations during each of them, all settings, all password settings",
  "a test would have to make each allocation of each request fail, in every state; the space of patterns of failure is infinite and the interesting failures depend on the data",
  ["src/context.cpp: Context::execute, Context::execute_in_type, Context::execute_in_variable", "src/instance.cpp: get_shared_instance, vector_representation, VectorInstance::op_popBack, VectorInstance::op_removeAll, VectorInstance::op_replaceAll_with, SetInstance, DictionaryInstance, FloatInstance::representation, StringInstance::value"])
p("A server that runs out of memory keeps its clients apart and its data sound",
  "If allocations fail anywhere in the server, whenever and however often, then as long as the process lives: requests are still executed one at a time, each with one of the outcomes of C91, and every reply goes to the client it belongs to; what each client sent is taken in order and nothing is invented, but a line may be taken in several pieces, each of which is answered, so that the client gets more replies than it sent lines. A connection is authenticated only if the password was presented in what it sent and the server answered 'null'; a connection that is not authenticated changes no data, learns nothing but one of seven fixed replies, and makes no difference to other clients. The data is data that a server with enough memory can have, and whatever was executed is in the log file with the reply it got. The process ends only if an allocation fails while a connection is accepted, bytes are received, the next read is started, a reply is written, or a request fails as in C91. A connection whose reads get their memory is served in whole lines, and with enough memory everything is as usual.",
  "all sequences of events of the server (connections, bytes arriving in any packets, completions and errors, in any order), every pattern of failing allocations during each of them, all passwords and settings",
  "a test would have to make each allocation in each handler fail under every schedule; what a failing std::getline leaves in the buffer depends on the library and is visible only in later replies",
  ["src/server.cpp: Server::handle_accept, Session::do_read, Session::do_write, Session::receive", "src/context.cpp: Context::execute"])
p("A log file that cannot be written, and a log file of several processes",
  "If the operating system refuses bytes of the log (disk full, I/O error), clients do not notice: the server does exactly what it does when everything is written. The part of the file that was there before is kept; the complete lines after it are the log of all requests executed up to some point of the history, not before the first error, and replaying them gives the data at that point; after an error nothing is ever written again, neither to the file when there is room again nor to standard output. Several processes that use one file one after the other and end between lines leave the log of all their requests in order, which can be read in only one way; but where one process ended and the next, with no data, started cannot be told from the file. If a process is killed in the middle of a line, the first line of the next process is appended to the incomplete one: a request that was executed and answered can be missing in every reading of the file.",
  "every history of events, every pattern of refused bytes (in every piece of every line), every number of processes with the same file",
  "A test sees a few failing writes; that nothing before the failure is lost, nothing is written after it, and no reply differs must hold for all points of failure.",
  ["src/context.cpp: Context::Context, Context::execute (lines 52-53, 165-171)", "src/context.h: Context::_logfile"])
p("The work of executing a request is polynomially bounded",
  "Executing a request takes a number of steps (objects visited, copied, moved; bytes read, compared, copied, printed) that is bounded in the length of the request and what is stored: at most their product, up to a constant factor, besides parsing and writing the reply, for every message but `removeAll:`, `sort` and `listNamespaces`, and at most quadratic (with a logarithm) in what is stored for these; so polynomially in what all clients have sent since the server began. Messages to a set or dictionary that do not list or clear it take logarithmically many comparisons; a search in a vector takes at least a step for each element if the value is not there; `removeAll:` does reach the quadratic cost. What a client that has not authenticated makes the server do is bounded in the length of its line alone, whatever is stored. All the work of a server since it was started empty is bounded by the fifth power, with a logarithm, of the number of bytes it received plus a constant times the number of bytes it replied. Counting steps changes no result.",
  "every request in every context (logarithmic bounds: every reachable one), every history, every way the standard library may search and sort within the complexity the C++ standard prescribes",
  "A test measures a few sizes on one machine; a bound is a statement about all sizes and all stored data.",
  ["src/context.cpp: Context::execute, execute_in_type, execute_in_context, execute_in_variable, op_*", "src/instance.cpp: VectorInstance, SetInstance, DictionaryInstance, InstanceIsLessThanComparator", "src/server.cpp: Session"])
p("After a broken connection at most one request is in doubt",
  "If the server has completely written n replies to a connection, the first n lines the client sent were executed, once each and in order, and at most one more; none more as long as the connection waits for input. One more there can be: when a connection breaks, the last line may have been executed or not, and neither what was written to the connection nor the other connections show which. For a request that may be repeated (C69) the doubt does not matter: if the client authenticates on a new connection and sends the request again, the data are the same afterwards whether the first copy was executed or not; also if others' requests, which touch other variables and do not change the settings, were executed in between, and these others get the same replies in both cases.",
  "every schedule, every point at which the connection breaks, every state of the data, every request and history in between",
  "A test can break a connection at a few points of one run and see one of the two outcomes; that no point leaves more in doubt, and that repeating is harmless in both cases, is a statement about all of them.",
  ["src/server.cpp: Session::do_read, Session::do_write", "src/context.cpp: Context::execute"])
p("A text between quotes cannot become another request",
  "A program makes a request from a fixed text and one text somebody else supplied, which it puts between double quotes as one argument. If the supplied text is properly quoted (every quote in it and its end after an even or odd number of backslashes as the grammar wants), the request is the intended one with that argument. If it is not, it can change neither the receiver nor the other parts of the message nor their arguments: it can only close the string and insert further parts of a message, the last of which has a string as its argument; and if the receiver understands the intended message, such a request is refused with an error and changes nothing (unless the fixed text itself contains a number out of range). A program that puts a backslash before each quote and each backslash always sends the intended request, and texts without backslashes arrive unchanged. None of this holds for two unescaped texts in one request, for a text without quotes, for a message the receiver does not understand, or for texts with newlines: for each there is an example.",
  "every template (receiver, message, other arguments, layout), every supplied text, every reachable state",
  "Tests can try known attack strings against a few messages; that no string succeeds against any message needs an argument about the grammar and all tables of messages.",
  ["src/grammar.cpp: Grammar::is_string_value, Grammar::is_keyword_message", "src/parser.cpp: Parser::Parser", "src/context.cpp: Context::execute", "src/instance.cpp: receive of all classes"])
p("The answers to different questions about one variable agree with each other",
  "For every vector there is one list of texts from which get, size, isEmpty?, atIndex:, first:, last:, sliceFromIndex: and sliceFromIndex:toIndex: are all answered, and for every literal one ascending list of positions in it from which contains?, count:, firstIndexOf:, allIndexesOf: and the variants with fromIndex: are answered; unless the elements are floats these are the positions of the text of the value. removeAll: shrinks the vector by what count: has reported and leaves nothing to be found; replaceAll:with: keeps the size and, unless the elements are floats, moves the whole count of the old value to the new one. The same for sets (get, size, isEmpty?, contains?), dictionaries (get, keys, values, size, isEmpty?, containsKey?, getValueForKey:; containsKey? answers true iff getValueForKey: does not answer null) and strings (get, length, isEmpty?, atIndex:, first:, last:, substrings; startsWith? and endsWith? compare the literal with what first: and last: return; equality compares it with what get returns).",
  "every reachable state, every vector, set, dictionary and string variable, every literal, every index, every session",
  "The questions are answered by independent pieces of code; that no content whatsoever makes two of them disagree is not settled by trying some contents.",
  ["src/instance.cpp: VectorInstance, SetInstance, DictionaryInstance, StringInstance", "src/context.cpp: Context::execute"])
p("A dictionary can serve as a map of arbitrary byte sequences, for any number of clients",
  "A small client program that writes keys and values in hexadecimal (put, get, has, remove, each one request line) turns a Dictionary<String,String> into a map from arbitrary byte sequences to arbitrary byte sequences, although not every byte sequence can be sent as a literal (C11): as long as the dictionary is used through such clients only, each command of an authenticated client is answered as by one map to which all accepted commands before it, of all clients, have been applied one after the other - get returns exactly the bytes put last under this key, or nothing if there are none or they were removed. Every command is one line, and as long as no value has more than 32766 bytes every reply is short enough to be delivered (C47).",
  "every interleaving of any number of such clients (and others that do not touch the dictionary), all byte sequences as keys and values",
  "That no key or value whatever its bytes, and no interleaving, breaks the encoding or the map is a statement about infinitely many texts and schedules.",
  ["src/instance.cpp: DictionaryInstance::op_associateValue_withKey, DictionaryInstance::op_getValueForKey, DictionaryInstance::op_containsKey, DictionaryInstance::op_removeKey", "src/grammar.cpp: Grammar::is_string_value", "src/parser.cpp: Parser::Parser", "src/context.cpp: Context::execute", "src/server.cpp: Session::do_read"])
p("Any number of clients can agree on one value by creating it",
  "Let any number of clients use one name only by proposing values for it with createIfNotExists:withValue: and asking for it with get, starting when it does not exist, in whatever interleaving, with any other requests that do not concern the name in between. Then every proposal of an authenticated client is accepted (nobody has to wait or try again); the value is that of the first accepted proposal, and stays it; all clients that are told a value are told the same one (for a Float, the same up to the printing precision), and it was proposed before; a client that has proposed and then asks is always told a value; and one that asks before anybody has proposed is told that there is no such variable.",
  "every interleaving of any number of clients, all proposed values and types, all other requests in between",
  "Agreement is a property of all interleavings of all clients' requests with arbitrary other traffic; a test can only try some schedules.",
  ["src/context.cpp: Context::execute_in_type, Context::execute", "src/instance.cpp: BooleanInstance::op_get, CharacterInstance::op_get, IntegerInstance::op_get, FloatInstance::op_get, StringInstance::op_get", "src/server.cpp: Session::do_read"])
p("A vector can serve as a pool of resources that are never lent twice",
  "Let any number of clients use a vector (not of floats) as a pool: they take elements out of it (popFront, popBack, popAtIndex:), later put back, byte for byte, something they were told and have not put back yet (pushFront:, pushBack:, insert:beforeIndex:), and may rearrange it (reverse, sort) and ask questions. Then at every moment what is in the vector and what is lent make up together exactly what was in it at the beginning; so no more elements are lent than there were (a counting semaphore), and if the elements were all different, no element is lent to two clients, or lent and in the vector, at the same time. An authenticated client that takes from an end is told null exactly if everything is lent, and otherwise an element that nobody holds. Refused requests do not matter.",
  "every interleaving of any number of clients, all element types except Float, all contents, at every moment of the history",
  "That no interleaving whatever lends an element twice or loses one is a statement about all schedules and all contents.",
  ["src/instance.cpp: VectorInstance::op_popFront, VectorInstance::op_popBack, VectorInstance::op_popAtIndex, VectorInstance::op_pushFront, VectorInstance::op_pushBack, VectorInstance::op_insert_beforeIndex", "src/context.cpp: Context::execute", "src/server.cpp: Session::do_read"])
p("A Float can be used as a sum by many clients, with a known error",
  "If all that any number of clients send to a Float are add: and subtract: (and questions), at most 2^22 accepted requests and magnitudes of together at most 2^127, then the Float stays finite, and differs from its first value plus all the numbers written in the accepted requests by at most 2^-23 of the sum of all magnitudes (plus 2^-148) for each request, whatever the schedule; two orders of the same requests differ by at most twice that. The sum is exact, so independent of the order, if all numbers are multiples of one power of two (2^-149 to 2^103; for example whole numbers) and their magnitudes together do not exceed 2^24 times that power. Beyond, updates are lost: a Float that holds 16777216 stays there however often 1 is added, although every such request is accepted.",
  "every interleaving of any number of clients, all literals, all float values within the stated bounds",
  "Rounding errors of sums depend on all operands and on the order; the bound has to hold for every sequence of up to four million requests.",
  ["src/instance.cpp: FloatInstance::op_add, FloatInstance::op_subtract, FloatInstance::receive", "src/instance.h: FloatInstance", "src/context.cpp: Context::execute", "src/server.cpp: Session::do_read"])
p("Standard output can stop the server only if requests are logged there",
  "With a log file, or in quiet mode, nothing is ever written to standard output after the start, and its state affects nobody. Otherwise every executed request writes one line there, before its reply is sent: if the reader of a pipe has gone, the process is killed, exactly when a request is executed (also an attempt to authenticate with a wrong password by anybody); if nobody reads and no room is left, the server stops for all clients, without end; if bytes are refused (a full disk), no client notices, and nothing is printed any more. What is shown is always the greeting followed by an initial part of the log of all executed requests in order, and all of it if no error was reported. The greeting is printed in every mode; if it cannot be written because nobody reads, the server does not start.",
  "every history of events of any number of clients, and every behaviour of what standard output is connected to",
  "What the process at the other end of a pipe does, and when, is outside of a test; the claim covers every moment at which it may end or stop reading.",
  ["src/context.cpp: Context::execute", "src/knuckleball.cpp: main, VERSION", "src/server.cpp: Session::do_read, Server::run"])
p("Reading a request stays inside of it",
  "For every request shorter than 2^31 bytes, whatever its bytes are, and with room on the stack for one call for each four of them, the server accesses only bytes of the request (or its terminator) while it checks and takes apart the request: no index outside of it, no integer overflow, no exception other than the one for invalid statements, and no endless loop. The outcome is exactly: the actor, the name and the arguments if the request is a statement, and 'invalid statement' otherwise; the same holds for each test of an actor or argument, and for trimming, removing white space, and adding and removing backslashes. A request of at least 2^31 and less than 2^32 bytes is always undefined behaviour, also if it consists of white space only.",
  "every sequence of bytes shorter than 2^32",
  "All indices of the parser are computed without bounds checks; that none leaves the text must hold for every sequence of bytes, of every length, and tests neither cover these nor see an access just behind the end.",
  ["src/str_utils.cpp", "src/grammar.cpp", "src/parser.cpp: Parser::Parser"])
p("Strings of 2 GiB and more",
  "While a String is shorter than 2^31 bytes, every message to it that comes in a request with arguments shorter than 2^31 bytes stays inside of the string, computes no index that overflows, and does what is documented. A String can grow beyond that by short requests (concatenate:). With at least 2^31 and less than 2^32 bytes, it reads as the empty string (get, first:, last:), its length is a negative number, every message with an index is refused with 'invalid argument', popBack and endsWith? (with a text that is not empty) are undefined behaviour, popFront is undefined behaviour at exactly 2^31 bytes, and everything else (set:, clear, concatenate:, pushBack:, pushFront:, startsWith?, isEmpty?, the comparisons) works.",
  "every String value shorter than 2^32 bytes, every message with any arguments shorter than 2^31 bytes",
  "Tests with values of gigabytes are impractical, and the claim for the shorter ones ranges over all values, indices and arguments.",
  ["src/instance.cpp: StringInstance", "src/str_utils.cpp: escape, unescape, starts_with, ends_with"])
p("Vectors with 2^31 elements and more",
  "While a Vector has fewer than 2^31 elements, every message to it (in a request with arguments shorter than 2^31 bytes) accesses only elements of the vector, computes no index that overflows, ends, and does what is documented. A Vector can grow beyond that by pushBack:. With at least 2^31 and fewer than 2^32 elements its size is a negative number, every message with an index is refused with 'invalid argument', popBack, first: and last: are undefined behaviour, removeAll:, replaceFirst:with: and replaceAll:with: reply null but change nothing, firstIndexOf: wraps around, count: is undefined behaviour if there are 2^31 matches, and everything else (get, contains?, allIndexesOf:, pushBack:, pushFront:, popFront, removeFirst:, sort, reverse, clear, isEmpty?) works.",
  "every Vector with fewer than 2^32 elements, every message with any arguments shorter than 2^31 bytes",
  "Tests with billions of elements are impractical, and the claim for the shorter ones ranges over all values, indices and arguments.",
  ["src/instance.cpp: VectorInstance, get_shared_instance, vector_representation"])
p("The whole server never leaves its strings and vectors",
  "From its start, over every history of connections, arriving bytes, requests and replies in which each string and container that the server holds and the unread bytes of each connection are always smaller than 2^31, and with room on the stack for one call for each four of these bytes (in particular, from a start without variables, if fewer than 2^31 bytes arrive in total), the server with the index arithmetic of the C++ (int counters, casts from size_t, unchecked accesses, substr that throws) does exactly what the server without indices does, to which all other properties refer: no access outside of a string or vector, no overflow of an index, no exception that leaves a request, no endless loop. A single request is also executed like this in every context whose strings and containers are smaller than 2^31, exactly if the stack has room for the calls that are active at the same time; otherwise the stack overflows. Both limits can be exceeded by a client that has not authenticated: for every size of the stack there is a line of five bytes per call that overflows it, and every line of at least 2^31 and less than 2^32 bytes is undefined behaviour.",
  "every history of events that keeps everything below 2^31 bytes, every request in every reachable context, every size of the stack",
  "Tests run some histories of requests; whether some history makes some loop index leave its string or vector cannot be settled by them, and out-of-bounds reads are usually not seen.",
  ["src/context.cpp: Context::execute, Context::receive", "src/instance.cpp", "src/server.cpp: Session::do_read, Session::receive", "src/grammar.cpp: is_keyword_message"])
p("Sets and Dictionaries of any size",
  "However many elements a Set or Dictionary has, every message to it (in a request with arguments shorter than 2^31 bytes) does what is documented, with the index arithmetic of the C++; only size wraps around: its reply is the 32-bit number that differs from the number of elements by a multiple of 2^32. So a Set of Integer with all 2^32 integers, which add: can make, is not empty but replies that its size is 0.",
  "every Set and Dictionary of any number of elements, every message with any arguments shorter than 2^31 bytes",
  "Tests with billions of elements are impractical.",
  ["src/instance.cpp: SetInstance, DictionaryInstance"])
p("What is read from a counter is what was added before, so an Integer can serve as a barrier",
  "An Integer that clients only change with add: and subtract: of integers: whoever sends get is answered the value the Integer started with plus everything that accepted requests of all clients added before, whatever the schedule. If clients only add numbers that are not negative, such additions of authenticated clients are accepted and answered null, and what is read never decreases, whoever reads. Hence a barrier works: if the Integer starts at 0 and each client of a group adds 1 at most once (and nobody else does), get answers the size of the group if and only if every member of the group has already arrived.",
  "all histories (and all schedules of the server) in which the Integer is used this way, all groups of clients",
  "Quantifies over all interleavings of any number of clients; a test sees one schedule, and a barrier that opens early does so only in some.",
  ["src/instance.cpp: IntegerInstance add:, subtract:, get","src/server.cpp: Session","src/context.cpp: Context::execute"])
p("A Vector to which clients only append is a log that every reader sees in the same order, without gaps or repetitions",
  "A Vector that clients only change with pushBack: holds what it held, followed by everything that accepted requests of all clients appended, in the order of the requests. An authenticated client's pushBack: of a literal of the type of the elements is accepted and answered null. size, get, atIndex: and sliceFromIndex: answer about exactly that log, so an event keeps its number forever. A client that asks for the events from k on, counts those in the answer, and later asks for the events from there on, is answered exactly what was appended between the two requests: together the two answers have every event from k on once and in order.",
  "all histories (and all schedules of the server) in which the Vector is used this way, all numbers of clients, all indices up to the size",
  "Quantifies over all interleavings of any number of writers and readers; a test sees one schedule, and a lost or repeated event needs a particular one.",
  ["src/instance.cpp: VectorInstance pushBack:, size, get, atIndex:, sliceFromIndex:","src/server.cpp: Session","src/context.cpp: Context::execute"])
p("The server listens where the command line says, except that port numbers are taken modulo 65536",
  "The server listens at an address and a port exactly if the command line is valid, help is not asked for, a port is given, the address given with --bind (0.0.0.0, that is all interfaces, if none is given) is one, and the address with the port is free. A port between 0 and 65535 is the port used. Any other number is not refused: the server starts, and listens on another port, the one that is congruent modulo 65536; multiples of 65536 ask, like 0, for any free port. Address and port influence nothing else: two servers whose other options agree are the same.",
  "every command line, every set of addresses and free ports",
  "Quantifies over all 32-bit port numbers, addresses and states of the network; a test binds a few ports.",
  ["src/knuckleball.cpp: main","src/server.cpp: Server::Server, Server::get_instance"])
p("Settings given on the command line are not checked, and wrong ones make floats unusable",
  "Every precision and every tolerance given on the command line is taken, also those that setFloatPrecision: and setFloatComparisonTolerance: would refuse; requests, on the other hand, never lead from a positive precision and a tolerance that is not negative to others. With a negative precision floats are printed with six decimals. With a negative tolerance a float is less than every float that is not less than it (itself included), greater than every float that is not greater, and equal to none; every lookup, addition and removal of a number in a set of floats and every sort of a vector of floats with a number is undefined behaviour. If the tolerance is not a number, all floats are equal, and a set with one float contains every float and cannot get another.",
  "every precision and tolerance, every command line, every reachable state and history, all floats",
  "Quantifies over all settings and all floats; a test tries a few, and would not start the server with such settings at all.",
  ["src/knuckleball.cpp: main","src/context.cpp: Context::Context, op_setFloatPrecision, op_setFloatComparisonTolerance","src/instance.cpp: InstanceIsLessThanComparator, InstanceIsGreaterThanComparator"])
p("A Vector is a first-in-first-out queue for any number of producers and workers",
  "If clients change a Vector only with pushBack: and popFront, then what was in it at the start followed by everything posted by accepted requests of all clients is, in this order, everything that workers were told followed by what is in it now: nothing is lost, nothing is given to two workers, nothing overtakes. The k-th value taken is the k-th value posted, whoever posted and whoever took it. An authenticated worker is told null exactly if everything that was posted before has been taken, otherwise the first value that nobody has taken; an authenticated producer's pushBack: of a literal of the type of the elements is accepted.",
  "all histories (and all schedules of the server) in which the Vector is used this way, all numbers of clients, all types of elements (floats are printed with the precision of the time)",
  "Quantifies over all interleavings of any number of producers and workers; a test sees one schedule, and a value given out twice needs a particular one.",
  ["src/instance.cpp: VectorInstance pushBack:, popFront","src/server.cpp: Session","src/context.cpp: Context::execute"])
p("Who changes data learns nothing, except by taking out",
  "An accepted request that is not a question is answered null, unless it is popFront, popBack or popAtIndex: of a Vector or a String: then it is answered the printed form of exactly the element (or character) that it took out, and nothing else has changed. So every request that changes the data and is not answered null is one of these three; whoever changes a Boolean, Character, Integer, Float, Set or Dictionary learns neither the old value nor the new one: there is no atomic read-and-modify (numbers drawn by add: 1 and then get can coincide), and the reply of every other change reveals nothing about the data beyond that the request was accepted.",
  "all reachable states, all requests, all histories of any number of clients, all schedules of the server",
  "Quantifies over every message, state and history; a test of the reply of one message in one state cannot show that no other change reveals anything.",
  ["src/instance.cpp: BooleanInstance, CharacterInstance, IntegerInstance, FloatInstance, StringInstance, VectorInstance, SetInstance, DictionaryInstance: interpret","src/context.cpp: Context::execute, Context::interpret","src/server.cpp: Session"])
p("A Vector is a stack for any number of clients",
  "Read from a log, accepted pushBack: and popBack of a Vector match like brackets, whichever clients sent them. After requests in which they match the Vector holds what it held before. An authenticated popBack with only matching requests between it and an accepted pushBack: is answered the printed form of the value pushed there, whatever else happened to the Vector before (unless it was deleted); there is at most one such pushBack:. If the Vector was empty and accepted requests use it as a stack only, popBack is answered null exactly if there is no such pushBack:.",
  "all histories (and all schedules of the server), all numbers of clients, all types of elements (floats are printed with the precision of the time)",
  "Quantifies over all interleavings and nestings; a test sees one schedule and bounded nesting.",
  ["src/instance.cpp: VectorInstance pushBack:, popBack","src/server.cpp: Session","src/context.cpp: Context::execute"])
p("A Set to which clients only add tells all of them about the same growing set",
  "If the accepted messages to a Set (not of Floats) are only add: and questions, and it is not deleted, it holds exactly what it held and what accepted requests of any clients added. contains? answers an authenticated client true exactly if the value was there or was added by an accepted request before; who once was told that a value is there will be told so, as will everyone else. The answers to size never decrease, and are equal exactly if everything that was added in between had been there before, so asking for the size reveals whether something new was added. Histories that add the same values lead to the same set, in whatever order, by whomever and however often they are added.",
  "all histories (and all schedules of the server) in which the Set is used this way, all numbers of clients, all types of elements but Float",
  "Quantifies over all interleavings of any number of clients; a test sees one schedule.",
  ["src/instance.cpp: SetInstance add:, contains?, size","src/server.cpp: Session","src/context.cpp: Context::execute"])
p("The keys of a Dictionary are cells that do not disturb each other",
  "For any number of clients that share a Dictionary (whose keys are not Floats, and which is not deleted meanwhile): the value of a key after any history is the one that the last accepted request writing this key (associateValue:withKey: or removeKey: with this key, or clear) gave it, whatever is done to other keys. containsKey? tells any client whether the key has such a value, and getValueForKey: answers null if it has none. So a client that associates a value with a key reads exactly this value with getValueForKey: as long as nobody else writes this key, in particular if every client has keys of its own; and two histories in which the same requests write a key in the same order give it the same value, however they are mixed with other requests.",
  "all histories and all schedules of the server, all numbers of clients, all types of keys but Float, all types of values (Floats are printed with the precision of the moment), all keys and values",
  "Quantifies over all interleavings of any number of clients and all keys; a test sees one schedule.",
  ["src/instance.cpp: DictionaryInstance associateValue:withKey:, removeKey:, clear, getValueForKey:","src/server.cpp: Session","src/context.cpp: Context::execute"])
p("A Vector with one element is a cell with compare and swap, for any number of clients",
  "If a Vector (not of Floats) has one element, is not deleted, and the accepted messages to it are only questions and replaceFirst: o with: r, then it always has one element, and each accepted replaceFirst: changes it to r exactly if it is o at this moment; whatever other clients do, nothing happens between the comparison and the change. get and contains? tell every authenticated client the current element. Although replaceFirst: is answered null in any case (C113), a client can find out whether it succeeded: an element that is not the initial one was put there by a replaceFirst: that found what it expected, so a client that finds a value only it writes knows that its replaceFirst: succeeded. The element stays as long as no accepted replaceFirst: expects it; so if each client only replaces a fixed value 'free' by its own name or its own name by something, the Vector is a lock: as long as the client that was seen to hold it does not release it, contains? answers true for its name and false for the name of every other client.",
  "all histories and all schedules of the server in which the Vector is used this way, all numbers of clients, all types of elements but Float, all values",
  "Quantifies over all interleavings of any number of clients; a test sees one schedule.",
  ["src/instance.cpp: VectorInstance replaceFirst:with:, contains?, get","src/server.cpp: Session","src/context.cpp: Context::execute"])
p("While nobody changes the data, all questions are answered as if at one moment",
  "In a part of a history in which every request is refused, asks a question, or is for the connection (authenticate:, close), all replies that authenticated clients get are those of the data at the beginning of this part: so several questions, of one client or of several, fit together as if they had been asked at one moment (the replies of questions about several variables are a snapshot), and the same question gets the same reply. So if the same question gets two different replies, an accepted request that is not a question has been executed in between.",
  "all histories and all schedules of the server, all numbers of clients, all requests",
  "Quantifies over all interleavings of any number of clients and all requests; a test sees one schedule.",
  ["src/server.cpp: Session","src/context.cpp: Context::execute","src/instance.cpp: the messages that are questions"])
p("Two variables cannot be changed at once",
  "A request changes at most one variable (creates it, changes what it holds, or deletes it), unless it deletes the variables of a namespace that contains both. So if two variables have changed in the course of a history without such a deletion, there was a moment between two requests at which one of them had changed and the other had not: nobody can make a change of two variables (a transfer, for instance) that others cannot see halfway.",
  "all requests, all pairs of variables, all histories and all schedules of the server",
  "Quantifies over all requests and all histories; a test tries some.",
  ["src/context.cpp: Context::execute","src/instance.cpp: receive","src/server.cpp: Session"])
p("Questions can be left out and inserted anywhere",
  "Take any history of the server and leave out some of the requests that were refused or only asked a question (not those to Connection): the remaining requests, in the same order, are a history of the server from the same data, with the same replies, and the data in the end are the same. Conversely an authenticated client can ask a question at any moment of a history: it is answered from the data of that moment, and all other replies and the data in the end stay the same. So watching the data, however often, does not change what anybody else is told.",
  "all histories, all choices of the requests left out, all questions and moments, and all schedules of the server",
  "Quantifies over all histories and all subsets of their requests; a test tries some.",
  ["src/context.cpp: Context::execute","src/instance.cpp: receive","src/server.cpp: Session"])
with open("/verif/properties.jsonl","w") as f:
    for x in P: f.write(json.dumps(x)+"\n")
print(len(P))
