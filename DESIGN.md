# Knuckleball in Lean 4: design

Knuckleball (`/repo`, C++11, about 3,400 lines) is a network service that keeps named, typed variables and executes
Smalltalk-like statements on them (`Integer create: i withValue: 42;`, `i add: 1;`, `i get;`), one per line, one reply
line each.  The model covers all of `src/` that is logic: `str_utils.cpp`, `grammar.cpp`, `parser.cpp`, `instance.cpp`,
`context.cpp`, `server.cpp`, and what `knuckleball.cpp` (`main`) does after the command line has been parsed.

Status: every property of `properties.jsonl` is proved (`MANIFEST.json`); none is partial.

## Layout

| directory | content |
|---|---|
| `lean/Verif/Model` | the model, function by function, each definition citing the lines it models |
| `lean/Verif/Spec` | small, independent specifications: the documented grammar (`Grammar`, `Values`, `Layout`, `Plain`), what each message means (`Messages`, `Behaviour`, `Signatures`, `Questions`), errors and undefined behaviour (`Errors`, `Undefined`), the whole service as one abstract machine (`Machine`), effects and histories (`Effect`, `Answers`, `Updates`, `Isolation`), serial executions of the server (`Server`), real-number meaning of floats (`Reals`), storage (`Storage`), reachable data and its copy (`Rebuild`), the log as a text (`Log`), repeated requests (`Retry`), infinite executions (`Liveness`), concurrent updates (`Concurrency`), sizes (`Sizes`), conversations (`Observe`), influence of the settings (`Settings`), the log file after a crash (`Crash`), renaming of variables (`Rename`), which messages undo which (`Undo`), floats that the tolerance does not confuse (`Apart`), histories without the events of some connections (`Disjoint`), requests with a hole (`Template`), answers that fit together (`Agree`), a client program (`Client`), histories without the events of one connection (`Anonymous`), sums of floats (`Sums`), instances in memory and the pointers to them (`Heap`), sessions and the operations that own them (`Sessions`), arrival of bytes (`Arrival`), the process as a whole (`Process`), requests while memory runs out (`Scarce`), the server while memory runs out (`ScarceServer`), a log file that cannot be written or that several processes write (`LogFile`), measures of stored data (`Work`), agreement by creation (`Consensus`, `Barrier`), a vector as a log of events (`Topic`) as a queue (`Queue`) and as a stack (`Stack`), a set that only grows (`Grow`), the keys of a dictionary as cells (`Cells`), compare and swap (`Swap`), times without changes (`Still`), what has changed between two moments (`Halfway`), histories with and without questions (`Ask`), pools of resources (`Pool`), taking something out (`Learn`), standard output (`Console`), strings of 2 GiB (`LongStrings`), vectors of 2^31 elements (`LongVectors`, `LongSets`) |
| `lean/Verif/Proofs` | helper lemmas and invariants |
| `lean/Verif/Props` | the property theorems (one file per group of properties), each with a non-vacuity example; `Props/Cases.lean`, `Props/MoreCases.lean`, `Props/YetMoreCases.lean` and the last section of some files apply the theorems one by one to concrete data |
| `lean/Verif/Validation` | labelled *tests*: the expectations of the repository's own test-suite, evaluated on the model |

## Trusted base

* Lean's kernel, and the axioms `propext`, `Classical.choice`, `Quot.sound` (what each theorem uses is listed by
  `#print axioms`; no theorem uses more).  No axioms of our own, no compiled evaluation.  `decide +kernel` and the
  small tactic `kernel_rfl` (`Props/Demo.lean`) are used for closed computations: both only produce a term
  (`of_decide_eq_true (Eq.refl true)`, `Eq.refl a`) whose check is done by the kernel alone.
* That the model says what the code says (nothing here is extracted mechanically; each definition cites its source).
  The tests in `Validation` replay the repository's own test-suite on the model.
* The platform behaviour the code relies on, which is written down as part of the model, not proved:
  * `char` is a signed byte, `int` is 32 bits; `std::string` holds arbitrary bytes.
  * `isspace` is that of the C locale in glibc (also for bytes >= 0x80, which the code passes as negative numbers).
  * `float`/`double` are IEEE 754 binary32/binary64, round to nearest even, no excess precision, no contraction;
    `atof` is correctly rounded; `std::fixed` output is the exact value rounded half-even; NaN prints as `-nan` (x86).
    Floating point is *modelled* (`Model/Float.lean`: exact integers in units of 2^-1074), not axiomatised, and
    proved to be what it should: C53–C56 relate literals, printing, arithmetic and comparison to the rational numbers
    (nearest value of the format, ties to even) without mentioning the model's algorithms (`Spec/Reals.lean`).
  * undefined behaviour is a distinct outcome (`ub`): `atoi` out of range, `double` to `int` out of range, an ordered
    container or `std::sort` used with a comparator that is not a strict weak order on the data (`orderGuard`), a null
    session or instance, an index beyond a string's terminator, a second partial write.
  * `std::sort` is any function that returns a sorted permutation when the comparator is a strict weak order
    (`StdSort`; theorems hold for every such function, `Proofs/Sort.lean` shows that one exists).
  * `std::set`/`std::map` are the sorted sequence of their elements.
  * Boost.Asio: see the head of `Model/Server.lean`.

## Not modelled

* Storage other than instances: the characters of strings, nodes and arrays of the standard containers (`Model/Heap.lean`
  counts instances; its head lists its simplifications).  `Model/Server.lean` uses
  the context on values and phases instead of session objects; `Model/Sessions.lean` is the server with both kinds of pointers
  (C81–C84 relate the two).
* The parsing of the command line (Boost.Program_options) and binding the port (both are parameters of `Model/Main.lean` and `Model/Listen.lean`;
  the sign with which a NaN tolerance given on the command line is printed is not modelled);
  the destructor paths.
* Memory exhaustion while the server starts (later: `Model/Scarce.lean`, `Model/ScarceServer.lean`, C91, C92; the other models take
  allocations to succeed),
  sizes of 2^31 and above (in the first models all `int(x.size())` casts are taken as exact; the models `Model/Indexed*.lean` have the indices,
  casts and unchecked accesses as they are in the C++, and C103 to C106 prove that nothing is lost below 2^31 bytes, and what happens above for
  requests, strings and vectors), stack exhaustion (only in `Model/Indexed*.lean`, as a greatest number of active calls of
  `is_keyword_message`, C106; the size of a stack frame is not modelled; an enormous `setFloatPrecision:` makes libstdc++'s formatting
  allocate that much stack).
* The values of time stamps in log lines (any text without newline and brackets, in brackets).  I/O errors are
  parameters of two models only: of the log file in `Model/LogFile.lean` (C93), of standard output in `Model/Console.lean` (C102: what the
  operating system does with each line is arbitrary, `SIGPIPE` has its default action); the other models take all lines to be written.
  Standard error (one use, in `main` before it exits) is assumed to work.
* Running time in seconds.  Steps are counted: `Model/Cost.lean` has the recognizers and the parser with a counter, one step per
  loop iteration, character comparison and call (C58); `Model/Work.lean` has the containers, the context and the server with a
  counter, one step per object visited, copied, moved or destroyed and per byte read, compared, copied or printed (C94; its
  header says how each kind of operation is charged).  Both are proved to return the same results.  Allocation, the operating
  system and the log's output are not counted.
* The bytes a peer sees after a connection is aborted (kernel buffers).

## Findings (where the code deviates from its documentation or from what one expects)

1. `Connection close;` is not answered, although the README documents the reply `null` (C45).
2. A reply line of more than 65536 bytes always, and any reply the kernel does not take at once, reads a destroyed
   string in `do_write` (C47).
3. With every finite positive float tolerance (the default is 1e-7) the comparator is not a strict weak order, so
   `Set<Float>`, `Dictionary<Float,…>` and `sort` of float vectors are undefined behaviour on some data (C18, C39).
4. A float that has become NaN (infinity minus infinity) is equal to every float (C19).
5. Strings produced by `popBack`, `eraseFromIndex:` etc. may print as text that is not a literal of the language (C11);
   a password with an odd run of backslashes before a quote or at the end can never be entered (C42).
6. All Integer arithmetic is done in `double` (the type of the `?:` expression) and converted back: exact for results in
   range, undefined behaviour out of range or for division by zero (C13, C14).
7. Character comparison is signed, string comparison unsigned: they disagree on bytes >= 0x80 (C16).
8. After one failed `accept` the server never accepts again (C46).
9. The executed `authenticateWithPassword:` statement is logged with the password in clear text (C38, C62).
10. `createIfNotExists:` on an existing name validates its arguments before it looks for the name, and succeeds even if the
    existing variable has a different type (C29).
11. `getFloatPrecision`/`getFloatComparisonTolerance` do not check their argument count; no statement can exploit this,
    because their names are unary and unary messages have no arguments.
12. A `Connection` statement passed to `Context::execute` without a session dereferences a null pointer (C39).
13. The recognizer of keyword messages tries all splits: there are invalid lines of n bytes that take on the order of n³
    steps, and lines are parsed before authentication is checked (C58); a line is buffered without limit before that, too.
14. `replaceAll:with:` multiplies text: after k requests of together n bytes a server may store on the order of k·n
    bytes (C59).
15. `setFloatPrecision:` accepts every positive 32-bit number; three requests of 75 bytes make the server build a reply
    of two gigabytes (C59).
16. A log file that cannot be opened is silently ignored; with `--quiet` there is then no log at all (C63).
17. The default start has no password and listens on all interfaces; then any client can cause undefined behaviour with
    one request of 41 bytes (C63).
18. README.md: of its 144 sessions one cannot happen (README.md:1742 prints `1.82` where three decimals are configured),
    and `Connection close;` is not answered: the connection is closed before `null` is sent; `popBack`, `popFront` and
    `getValueForKey:` may answer `null`, which the manual does not say; `Integer add:` and its siblings also take floats,
    and `Integer` arguments everywhere also take floats, truncated (C64).
19. `is_keyword_message` recurses once per keyword part, up to one call per five bytes, and each active call holds a copy of
    the rest of the line: a line of n bytes makes it hold about n²/12 bytes and n/5 stack frames (C71), before
    authentication is checked.  A line of some hundred kilobytes overflows the usual stack of 8 MiB.
20. Out of memory: `popBack`, `popFront`, `popAtIndex:` remove the element first and make its text afterwards, so the element is lost when
    that allocation fails; `removeAll:` (of strings) and `replaceAll:with:` can stop halfway (C91 says exactly which states can be left; every one of them is a proper state, and the reply is `RuntimeError: unknown error.`).
21. Out of memory in `std::getline` (`src/server.cpp:117`): the stream catches the exception and sets `badbit`, which the program does not
    look at, so a part of the line (usually an empty one) is answered as a request, and the rest of the line is taken as the next
    request.  The client gets more replies than it sent lines, and is out of step from then on; with a library that takes
    characters one by one, the end of a line can be executed as a request to another variable (C92, examples `twice_view`, `cut_view`).
22. The result of writing the log is never looked at: after one failed write (disk full) the stream stays in error and nothing is logged
    any more, silently, even when there is room again (C93).
23. The log file does not record restarts, and a line left incomplete by a killed process is continued by the next one: the first request
    of the new process can be lost for every reader of the log (C93).  So C62 and C74 need a new log file for each process.
24. Some requests cost more than their size suggests: `removeAll:` on a vector moves the tail once for every match (quadratic, C94), `listNamespaces`
    copies every prefix of every name.  A client that has not authenticated can make the server parse a line for cubic time before it is refused
    (C58, C94), but cannot reach the stored data.
25. A Float used as a counter stops at 16777216: `add: 1;` is answered `null` and changes nothing (C101).
26. A server without log file and without `--quiet` depends on whatever reads its standard output: if that has ended (for example `knuckleball -p 1 | head`),
    the next executed request kills the server with all data, even a wrong password sent by an unauthenticated client; if it only stops reading,
    the server hangs for all clients once the pipe is full (C102).
27. A line of 2^31 to 2^32-1 bytes is undefined behaviour in the parser (`int(str.size())` is negative, `str[int(str.size()) - 1]` indexes before the
    text), and each line is parsed before it is checked that the client is authenticated: any client that can send 2 GiB without a line break, and finds
    the memory for them on the server, can make it crash (C103).
28. A String that has grown to 2^31 bytes or more answers `get` with `""` and `length` with a negative number, refuses all indices, and `popBack` is undefined
    behaviour (C104).
29. For a Vector that has grown to 2^31 elements or more, `removeAll:`, `replaceFirst:with:` and `replaceAll:with:` reply `null` but do nothing, and `popBack`,
    `first:` and `last:` are undefined behaviour (C105).
30. A client that has not authenticated can crash the server with one line, of at most five bytes for each call of `is_keyword_message` that the
    stack has room for (C106); with the usual stack of 8 MiB, a few hundred kilobytes.
31. A port number outside 0..65535 is not refused: the server silently listens on another port (`--port 73537` on 8001, `--port -1` on 65535)
    (C110).
32. `--floatprecision` and `--floatcomparisontolerance` are not checked, although the corresponding requests are: with a negative tolerance every
    float is less than itself, and the first `add:` to a `Set<Float>` is undefined behaviour (C111).

## Properties: what is modelled and how it is proved

Statements about a request are about `execute`, the model of `Context::execute`, on the raw bytes of the request, in every
context, or in every context reachable from an initial one by any history of requests (`Reachable`).  Statements about
the server are about `run`, every sequence of events.

| id | model | proof |
|---|---|---|
| C01–C03 | `parse`, `isStatement` | soundness and completeness w.r.t. an inductive grammar (`Spec/Grammar.lean`); prefix-freeness of arguments with spaces gives agreement of recognizer and extractor, and unambiguity |
| C04 | `parse`, `execute` | rendering of a statement with arbitrary white-space runs; corollary of C01/C03 |
| C05, C06 | literal recognizers | equivalence with declarative descriptions, induction |
| C07, C25, C31 (order) | `execute` | inductive invariant over requests |
| C08 | grammar | case analysis |
| C09–C11, C42 | `escape`/`unescape`, `stringLit`, `quoted` | induction on strings, parity of backslash runs |
| C12 | `natStr`, `atoi` | digits induction |
| C13, C14 | `intArith`, `Float` | exactness of rounding on integers below 2^53, error bound for products up to 2^62 and quotients |
| C15, C16 | comparators | case analysis, lexicographic order |
| C17–C19 | float comparators | order lemmas on rounding (monotonicity, exactness of sign) |
| C20, C22, C27 | tables | refinement to list operations |
| C21 | `vecSort` | uniqueness of sorted permutations |
| C23, C24 | set/dictionary tables | refinement to membership predicates / finite maps over histories |
| C26 | printers | unique decoding; with ≥ 46 decimals also for floats (every float is a multiple of 2^-149, and 46 decimals separate them) |
| C28–C33 | `execute` | frame lemmas, case analysis over tables |
| C34–C36 | `execute` | invariant + case analysis over replies |
| C37, C38 | `execute` | case analysis |
| C39 | `execute` | invariant + case analysis over all `ub` sources |
| C40, C41, C43–C48 | `step`/`run` | invariants over event histories; refinement to serial executions; C40, C41, C45 also in terms of events only (`Spec/Anonymous.lean`): two runs in lock step, one without the events of the unauthenticated connection; C44 also conversely (`Props/Orders.lean`): a schedule is constructed for every serial order; C47 for whole histories by the invariant `ShortSoFar` along the serial order (`Props/LongReplies.lean`) |
| C49 | `execute` | each error reply characterised by its cause (`Spec/Errors.lean`); case analysis over the tables |
| C50, C51 | `run`, `execute` | non-interference: projection of a serial execution to a set of variables is an execution; `Props/Disjoint.lean`: the same for event histories, by simulation (the others' events removed) |
| C52 | `run` | invariant over event histories |
| C53 | `atof`, `toF32` | rounding as nearest element of a grid of rationals; a literal as a rational number |
| C54 | `fmtFixed` | division with remainder, half-even; spacing of floats against half a unit of the last decimal |
| C55, C56 | `Fl.add` … `Fl.lt` | exact integer arithmetic in units of 2^-1074, uniqueness of rounding |
| C57 | character tables | case analysis over bytes, for every state |
| C58 | `Model/Cost.lean`, `Model/ServerCost.lean` | refinement (same results), induction on the recursion for upper and lower bounds |
| C59 | `execute` | invariants on sizes over histories, explicit families of requests for the lower bounds |
| C60 | `execute` | inductive invariant for one direction, explicit construction by requests for the other |
| C61 | `execute` | C60's invariant (containers hold no NaN and ascend), exactness of comparison at tolerance zero |
| C62 | `execute`, `Model/Log.lean`, `run` | a statement cannot be continued to another statement (`Proofs/Prefix.lean`), error replies end with a full stop and others never do; induction on histories for the replay |
| C63 | `Model/Main.lean`, `run` | case analysis, corollaries of C38, C41, C44 |
| C64 | `execute`; `Spec/Reference.lean`, a table generated from README.md by `tools/reference.py` | the table and the signatures of C49 are the same (computation), kinds of replies by case analysis; the sessions of README.md are replayed in `Validation/Readme.lean` |
| C65 | infinite executions of `step` (`Spec/Liveness.lean`) | induction on the number of unanswered lines, fairness to one connection only; the serial order of C44 tells which requests have been answered |
| C66–C68 | serial executions (`Spec/Concurrency.lean`) | induction on the log; projection to the updates of one variable, then C13, C22–C24; `Props/Schedules.lean` states C51, C66–C68, C79 and C95 for event histories (C44) |
| C69 | `execute` (`Spec/Retry.lean`) | case analysis; searching stays defined after an insertion or removal; explicit witnesses for the converse |
| C70 | `run` (`Spec/Sizes.lean`) | the serial order of C44 uses every received byte at most once; then C59 bounds names, strings and elements by the bytes of the requests; an explicit history for the lower bound |
| C71 | `Model/Depth.lean`: the recognizer with its call stack | equality with the recognizer; induction on the fuel; an explicit family of lines for the lower bound |
| C72 | `execute` (`Spec/Observe.lean`) | one direction: set the precision to 46 decimals (different singles then have different texts), read settings and each variable by `get`, element types by clearing and inserting; the texts are injective. Other direction: C51 along the conversation |
| C73 | `execute` (`Spec/Settings.lean`) | the same request in two contexts that differ in one setting, message by message through the dispatch tables; then along histories |
| C74 | `step`, `logLine` (`Spec/Crash.lean`) | the log file after a crash is the text of the records plus a prefix of the line being written; C38 along the serial order of C44; the last newline is unique; replay by C62 |
| C75 | `execute`, `makeInstance` (`Spec/Rename.lean`) | a relation between two contexts (equal up to an injective renaming) preserved by every kind of request; `makeInstance` uses its first argument only as a name; histories by induction; names are not literals, so C49's classification of endings leaves only refusals |
| C76 | `Instance.lean`, `Context.lean` (`Spec/Undo.lean`) | from the table of messages (`Behaves`): the pairs of the table by calculation; for sets and dictionaries ascending lists with the same members are equal; histories in between by C28 |
| C77 | `Instance.lean`, `Float.lean` (`Spec/Apart.lean`) | rounding is monotone, so a difference of at least twice the tolerance, itself a `float`, never rounds to the tolerance: the comparator agrees with that of tolerance zero on floats that are far apart; then row by row of the tables of messages; `sort` through its specification |
| C78 | `Float.lean`, `Instance.lean` | the text is nearest to the value; the float that is read is, up to the error of `double`, nearest to the text, so no farther from it than the value: it prints the same, unless the distance of neighbouring floats is within 2⁻²⁸ of the unit of the last decimal, which no pair of powers of 2 and 10 (up to 10⁴⁵, checked by evaluation in the kernel) is; from 46 decimals on C54; for vectors element by element |
| C79 | `Server.lean`, `Context.lean`, `Instance.lean` | from the serial execution of C44 and what the updates of one variable do (C23, C24, C67) |
| C80 | `Server.lean`, `Context.lean`, `Instance.lean` (`Spec/Machine.lean`: the abstract machine) | forward simulation: case analysis of everything a request can do; backward: each rule of the machine by the theorem about it (C21, C29–C31, C37, C39, C49, …), ascending lists and sorted vectors being unique; the server by the serial execution of C44 |
| C81 | `Heap.lean` (the instances in memory, `std::shared_ptr` with counts, scopes, destruction) and `Context.lean` | refinement: every operator of the pointer-level model is simulated by the operator on values, under the invariant that counts equal the numbers of pointers, no pointer occurs twice and the pointers lead to the values; the loops by induction over the elements; histories by induction |
| C82 | `Heap.lean` | that invariant, stated about the pointers found in the variables and their containers |
| C83 | `Heap.lean` | that invariant: an instance has a positive count, hence a pointer; counting without duplicates |
| C84 | `Sessions.lean` (`Session` objects with counts of owners, pending operations and their completion handlers) and `Server.lean` | refinement: every event of the server with session objects is simulated by the server with phases; the invariant gives each connection its session, with one owner, and its one pending operation, or neither; C81–C83 for the whole server from the same simulation |
| C85 | comparison, vectors, sets, dictionaries | the test of the rounded difference against the tolerance is monotone in the tolerance; then message by message; for dictionaries uniqueness of the matching key while the keys are searchable |
| C86 | `StdSort` as a parameter of everything | two ascending permutations without ties are equal; then congruence of `execute`, induction over histories and event lists; two concrete algorithms that differ on ties |
| C87 | `Server.lean`, `Context.lean` (two servers with different passwords side by side) | a message to the connection that presents neither password is executed alike with both; bisimulation over the events, using that no connection is authenticated (C41); for one client among others from the serial execution of C44 and the order of replies of C43 |
| C88 | `Float.lean`, `Instance.lean` (specification over the rationals: `Spec/Reals.lean`) | rounding to 53 and then to 24 bits differs from rounding to 24 bits only if the 53-bit result lies in the middle of two floats and is not exact; sums, products and quotients of 24-bit numbers, subnormal ones included, never do that |
| C89 | `step`, `run` (`Spec/Arrival.lean`) | simulation: the server ahead by the bytes still to arrive makes the same steps; for a lone client determinism of serial executions |
| C90 | `hmain`, `hrun` (`Spec/Process.lean`) | composition of C81/C84 (simulation), C44, C80 and C74 |
| C91 | `Scarce.lean` (the program of `Heap.lean` where each allocation may fail, destructors on the way out, `catch (...)`) | refinement as for C81, with the states an interrupted operator can leave (`LeftOver`); each of these is reachable by ordinary requests (`clear`, `pushBack:`) |
| C92 | `ScarceServer.lean` (the event loop over `Scarce.lean`, each allocation of the handlers may fail; `std::getline` swallows the failure) | invariant as for C44 with pieces instead of lines (`ScarceExplains`), step by step; purging as for C40 |
| C93 | `Model/LogFile.lean` (the output stream with its error state over the file; `step`) | induction on the history: the file is the old contents, the text of the records and a prefix of one line if an error occurred; then C74, C62; explicit histories for the two negative statements |
| C94 | `Model/Work.lean`: `execute` and the server once more with a count of steps, the searches and sorting of the library as a parameter (`Library`) | equality of results function by function; bounds operator by operator through the dispatch tables, loops by induction; C58 for the parser, C59 for what is stored; an explicit family for the quadratic lower bound; `Proofs/Bisection.lean` shows that the parameter has a member |
| C95 | `Model/Server.lean` and the serial specification `Explains`, `Serial` of C44 | number of complete replies against the number of executed lines, from C44's explanation (`Written`); two schedules from the same state that end with the same bytes written and the data before and after the request; retry on a new connection from C69, with requests on other variables in between by an induction that carries agreement outside and inside the touched variables (C50's frame lemmas) |
| C96 | the grammar (`Spec/Grammar.lean`) with holes (`Spec/Template.lean`), `parse`, `execute` | two readings of the same text agree up to the hole; after it, by descent on the length: a string cannot reach into the fixed text, because the quotes left over never pair up; then the tables of messages: no message is another one with a part inserted that takes a string (computation, for all element types), and C49 |
| C97 | the operators of `Model/Instance.lean` that read; answers collected in `Spec/Agree.lean` | C20, C23, C24 and C27 give each answer from the stored value; positions by induction on the list (`positionsFrom`); the printed form of a value that is not a float determines it (C26's lemma for one element) |
| C98 | the whole server (`Model/Server.lean`), and a client program in `Spec/Client.lean` (not part of the repository) | the client's lines are statements (grammar lemmas of C96); what the dictionary holds after any history (C24, C67) against the fold of the commands, by induction from the end of the history; hexadecimal digits by computation; schedules by C44 |
| C99 | the whole server (`Model/Server.lean`); the protocol in `Spec/Consensus.lean` | existence of the name after any history (C66), creation (C29), what is kept by requests that do not change a variable (C67's chain with no updates), by induction from the end of the history; `get` (C79), unknown names (C49); schedules by C44 |
| C100 | the whole server (`Model/Server.lean`); the discipline of the clients in `Spec/Pool.lean` | induction over the history: each accepted message permutes (elements of the vector) ++ (elements lent), using the meaning of the messages (C20), and that what a printed element denotes is printed in the same way (C11, C12); exclusion because printing is injective (C26); schedules by C44 |
| C101 | serial executions and `run`, floats as rational numbers (`Spec/Sums.lean`) | error of each rounding (`Proofs/FloatError.lean`) accumulated by induction along the accepted updates of the serial order; exact case: partial sums are on the grid of `float`; stuck case: 2^24+1 is rounded back |
| C102 | `Model/Console.lean`: the server of `Model/Server.lean`, each event with the fate of what it writes to standard output; the greeting of `main` | each event either executes no line, and then writes nothing, or adds one record (C38); simulation with the server that ignores standard output; the text shown by induction over the history, explained by C44 |
| C103 | `Model/Indexed.lean`: `str_utils.cpp`, `grammar.cpp` and `parser.cpp` with `int` indices, wrapping casts, unchecked `operator[]`, and `substr` that throws | each loop is shown to compute the list recursion of the first model (`up_list`, `down_list`: invariants over what has been visited), function by function; then the grammar theorems (C01, C02) apply; long texts by computation |
| C104 | `Model/IndexedString.lean`: `StringInstance` with `int` indices, wrapping casts, unchecked accesses, `substr`, `insert`, `erase` that throw; the meaning for long strings in `Spec/LongStrings.lean` | each operator equals the one of the first model if the string is short (then C20 applies); for long strings each message by computation with the negative size |
| C105 | `Model/IndexedVector.lean`: `VectorInstance` with `int` indices, wrapping casts, unchecked accesses and iterator arithmetic; the meaning for long vectors in `Spec/LongVectors.lean` | each operator equals the one of the first model if the vector is short (loops by induction over what has been visited; then C20 applies); for long vectors each message by computation with the negative size |
| C106 | `Model/IndexedServer.lean`: the remaining instances, `context.cpp`, and sessions and handlers of `server.cpp` with `int` indices, on top of the models of C103, C104 and C105; the stack is a number of calls | function by function equal to the first model if everything is short (`execute_eq`, `step_eq`), then induction over the history (for the total of the bytes, C70 bounds what the server holds); the stack by showing that the recursion with a bounded depth fails exactly when the number counted for C71 is greater |
| C107 | `setTable`, `dictTable` of `Model/IndexedServer.lean`; the meaning in `Spec/LongSets.lean` | the tables equal those of the first model except for `size`, whatever the number of elements; then C20's specification applies; existence by induction over the requests |
| C108 | `add:`, `subtract:`, `get` of IntegerInstance under every schedule of the server (through C44) | the counter's value after every prefix of the serial order (C67), one reply per read; the set of clients that have arrived has as many members as the counter says (induction over the log), so a subset of the group of the group's size is the group |
| C109 | `pushBack:`, `size`, `get`, `atIndex:`, `sliceFromIndex:` of VectorInstance under every schedule of the server (through C44) | induction over the log (each accepted `pushBack:` appends one value); the answers by C20 in the state before the request (one reply per read); the second slice of a follower by `drop` of an append |
| C110 | `Model/Listen.lean`: `main` with `--bind` and `--port`, the constructor of `Server`; what the network offers is a parameter | by cases on the command line; the conversion to `unsigned short` by arithmetic modulo 2^16 |
| C111 | `main` (C63's model) and the settings of the context | the settings by computation; that requests keep them valid by induction over the history; comparisons with a negative tolerance because rounding keeps the sign of a difference; undefined behaviour because no order in which something is less than itself is strict |
| C112 | `pushBack:`, `popFront` of VectorInstance under every schedule of the server (through C44) | induction over the log: what was taken followed by what is left is what was there followed by what was posted; the answers by C20 in the state before the request |
| C113 | every message of every type of variable, of the context and of the connection, under every schedule of the server (through C44) | by cases on what each message means (C20 and its companions): no message but a question answers anything but `null`, except taking out |
| C114 | `pushBack:`, `popBack` of VectorInstance under every schedule of the server (through C44) | by induction over the matching of pushes and pops, which are read from the log alone, as brackets; that the match is unique by counting |
| C115 | `add:`, `contains?`, `size` of SetInstance under every schedule of the server (through C44) | from C23 and C79: with no removal in the log, the elements are those that were there and those added; sizes by inclusion of lists without repetitions |
| C116 | `associateValue:withKey:`, `removeKey:`, `clear`, `getValueForKey:` of DictionaryInstance under every schedule of the server (through C44) | from C24 and C79: the messages of a history and the requests of the log are split at corresponding places, so the value of a key is told by the requests that write it; histories are compared by filtering them |
| C117 | `replaceFirst:with:`, `contains?`, `get` of VectorInstance under every schedule of the server (through C44) | induction over the log: each swap is a step of a relation that is read from the log alone and is functional; the content by C20 in the state before the request; origins, persistence and the lock by induction on this relation |
| C118 | `Context::execute` under every schedule of the server (through C44) | induction over the part of the log: such requests keep the data (C32, C33), and replies depend on the data only (C51), not on the session |
| C119 | `Context::execute` under every schedule of the server (through C44) | by cases on what a request can concern (C28, C29, C30), which its text determines; the moment by induction over the log |
| C120 | `Context::execute` under every schedule of the server (through C44) | a history is rebuilt request by request from data that are the same (C33, C51, C118); authentication and closing are not touched by what is left out or inserted |
