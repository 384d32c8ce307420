/-!
# The packed Chinese calendar table

Transcription of the byte array `chinese_calendar_data[30004]` in /repo/chinese.h:3-3755
(identical to /repo/chinese.dat).  Four header bytes, then 10000 three-byte entries.  The bytes
after the header are kept as 100 numerals of 300 bytes each; byte `j` of a row is bits
`8*j .. 8*j+7` of the numeral (little-endian), so that the kernel can index them quickly.
-/

namespace Verif.Date

/-- The four header bytes of `chinese_calendar_data`.  /repo/chinese.h:4. -/
def chineseHeader : List Nat := [0x10, 0x27, 0x95, 0xfe]

/-- Bytes 4..30003 of `chinese_calendar_data`, 300 bytes per row.  /repo/chinese.h:4-3754. -/
def chineseRows : List Nat := [
  0x9a06a5ad47528c77529d8769b2837491d36aa2caadb6054d99cd4aa9cea58a8ea49bced2af06e98e25d9a102dab28a6b960a96a80d4a871b499a0ba4ad4bd28c6bb29d85b5b0c2d691f4b5a48a95837695968b49ab8ba48a97649bcb72ad45758e456da102adb44655947693a8074986eec99a06e4ab8aea8c4ada9f455ab0caab91eaaaa64d92b7cec9980dc9a9c5d48a95d49bcadaaf055a8e5555a2caa6b60d52963b92a64ba986eba99a03b4ab8ab58aaaad9f4555b28aa591d6a5a48752b7cba9980769a9c37488d36a9bcaabaf054d900d4aa10ea5b60752964dd2a646e98525d59a02daab8a5b8c6a969f4d4ab44da4939ba4a48bd2b605d99805b5a9c2b688d2b59bca55b0cb4a901b49a2cba4b44bb2964b6aa6457585256d9842adad46558c76939f4749b28764,
  0xa104b5b44a95947695a64b498717499a0764ab8b728aab6a9d856db0c4ad904d2ba2c695852e92968ec9a9c6e488d5d49bcadaad456b8e4556a10caab60d92964d93a64dc9854ba99a05d4ab8ada8aaab59d8556b28aaa91faa5a48b92837752968ba9a9c5b488d56c9a0aadaf05558e554ba106a5b44752964753a647698526e998436aab8aad8c6aaa9f4d4ab0cea593aea4a48dd2b606e99645d9a9c2da88d5569bca96af0d4a901b49a2cda4b44dd2948bb2a645b58525b59844b5ab8a958c76959f4b49b28ba492b764a48b72b6057596456da802ad88cd2b9bc695af07498e4ec9a2c6e4b44aea948adaa4856b86e5569a0aaaad4d928c7d929f4dc9b285d491f5d4a2cada836ab5968556a9caaa88daa59d8b92af0ba98e4ba9a105b4b44ab5946aada6455585554b,
  0xa9c5d488d5b49a0ab6ad45568e7555a10b297ff745930762a64ba9854b6998456ca9cab58acaab9d8555b0c6a590eea5a487528376d294cae9a8056a88d55a9a0aabad45538e4d4aa10ea5b446d2948dd2a485d98549b5984556ab8aaa8aba959f4b4ab28da491fba8a2cbb2836b7294c9b5a804b587352d9bc695af0b4a8e5751a10768b44b72948b6aa4856d83895b98452bab86958c6e929d8ed1b286e892b5d4a2caeab4456b98095aa9ccaa88db2a9bcd92af0dd18e4ba9a105d4b28ada948ab5a64556855555984b25ad4b928c77529d8ba9b0c5b492356ca2caad81aaab94c553a9c6a588eea59bc752ad47698e46e9a1056ab28aad92caaba6454b870d4a9a0ea4ab8dd28c6dd29d85d9b0c2da903556a48a96837a95968b4aa9cda48a9ba49bcbb2ad45b58c85b5,
  0xb0cea992cda9a485d48375b494cab5a9c55688f5559bcaa5af0d52903b52a2cba8b44bd4948b72a649b5854aad98454dab8aa58c96a59f4751b287a892b6e8a48b6a8372da94c96ba8052b8aad4a9d8ea4af0ed18e4dd1a2c5d8b44aea9482dba6495a871a559a0d2aad4da28c7ba29d8bd1af05d58f25b5a2c2b681aaad94c655a80b2988f7459bc7a2ad4ba98c8b6aa10574b28ab592caaba48555870d52984ec9ab87628ab6d49d8aeab0c56c90f55aa10aab836aa6968d52a80ea988cda89bcdd4ad45d98c89b59f4556b44aaa948aa5a64d52855b519a0ba8ab8bb48aab729bc9b5b0c4d690552da2ca9581b6a5968751a9c76888f6e49a0b6aad496d8ca95b9f452bb28695964ea2a64ed1854dd19845d4ab8aea8ab2da9d895ab0cd2a921b2aa48da2837ba294cbd1,
  0x856a969a0d4aab8ea58c8da49d8dd2b0c5e99105d5a2c2da81b2b6968a56a9cd4a88fb499bcba4af0bd28e6bb29f45b5b282b69482ada64655855695984749ad47a48c97649d8b6aaf057590e56ba2c2ad81caab94c693a9c6c988eec99bc6d4ad4aea8e6adaa1055ab28aab948aa6a80d52871d92984da9ab85d48c75b49d8ab5b0c55a90f555a48aa5837aa5968b52a80ba988e7a99bc374ad49b58caaada1054d7ff54b9306a5a64752870f519846e9ab836a8ad2da9d896bb0c54b92ad4aa48ea4853da4968dd2a805e98725d59bc2daaf095a8e7a56a10d4a81bb4994cba4a64bd2854baa9845b5ab82b68ad2ad9d8655b28b4992b749a487a4837764968b6aa8057588e56a9a0aabaf05558e7553a106c97feec994c6d4a64aea854ad998455aab8aab8c8aa69f4d52,
  0x8caaea9f456d7fe55a914caba48693872d92984ec9ab86e48ad5d49d8adab0c55a910557a2caaa839b25968d92a80dc9872ba99bc5b4ad4aba8ccab59f45557ff54d930aa5a64b528557529847a9ab83b48ad36a9bcaadb0c55590f54ba2c6a581cea5968752a806e98726d99a036aad4a6b8e6a9aa10d4a7ffd4a94cda4a64dd2854bd29685d5ab82da8ad4b69d8a56b0cd4a92cb49a48ba48377a494cbb2a805b587256d9a02b5ad4a558e7695a107497fef49930764a64b6a854aea96856da9c2ad8accab9d8693b0c6c9910ec9a486e48375d494cadaa8055a88f5569bcaaaaf0d528e7d92a10dc97feba99305b4a48ab6854ab5984555ab8aa58adaa59f4b52b0cba99107a9a2c3b483936a94caada8055587354b9bc6a5af07528e6f529f46e97fe6d99302daa48a6b,
  0x94c752a80ba9872b699a056cab8aad8ccaab9f454b800d4a914ea5a64752856dd29686e9a9c36a8af55a9d8aaa7c7a958f8d4aa48ea4839ba494cdd2a645d98725b59a04d6ad4a968cda95a10b4a7ff7499307a4a48bb2854b6a9685b5a9c4b589152b9d8695b0c749910749a2c7648396e494caeaa6456d87455a9a0cabad46958e6e929f4ec97fedc99305d4a48ada83aab6984556ab8aaa8adb259d8d92b0cdc9910ba9a2c5d481b5b494cab5a805568735559a0aa5af0b528f37529f4ba97e276993056aa48aad83aaab96854bab86a58acea59d8752af06e99106e9a2c36a81d55694ca9aa9cd4a891d4a9bcda4ad4dd28e6dd29f45d97e25b59144d6a64a96857a95984b49ab8ba48c97a49d8bb2af05b58f4575a2c2b581d4ab94c695a8074988ef499bc764ad4b6a,
  0x9bca957c76958f8749a2cba881d76494cb72a645b585896b98452dad46958d76959f47517e4ed19306e4a48aea83aada94c95ba9c52b8aed2a9d8e927c7da28f8dd1a2c5d481d5b4930ad6a8095a8759559a0b29ad4d928e9ba29f4ba97e2ba99145b4a48ab583aaad968555a9caa58ad7259d8752af0ba98f4b69a2c56c81d55a930aaba64553890d4a9a0ea5ad47528d8ed29f46e97e2ad591455aa2caab856a96984d4aab8da48adba49d8dd2af05d98f45b5a1055681d52d94ca95a80b4a8757499bcba4ad4bb28d8b6a9d85b57e296b91452ba4869583b693984749ab87648ad6e49bcaeaaf056d91095aa10d2b81cd2a968e92a80ec9874dc99a05d4ad4ada8ccab69f45567e3555930b25a64d92857b92968ba9ab85d48ad5b49bcab5af0556910555a2caa581d6a5,
  0xa2c2da83b2b5968a55a9cd2a893b499d8ba27c77a28dcbaa9f45b581c56c930aada645558596539a0749ad47628d87639d8b6a7e4aea91456aa2caab83aaaa984d52a9cec9892ec99bc6d47c75d48dcad9a1055a80355694caa6a80d52875d529a0da8ad4dd48d8bb29d89b57c6aad914555a48aa583b6a5968b51ab8ba88ad7689bcb72ad49b58f49ada1052d800d2b9306a5a80751874ed19a06e8ab8aea8d72da9d895b7e4a56914d2aa64ea4857da2968dd1a9c5d48935d59bc2da7ab2b58dca55a2cb2a81fb4594cba2a64bb1874ba99a05b4ab8ab68baaad9f45557e5653914745a48762857752968b69a9c56c89356a9bcaabaf0555910d4aa10ea581eea594c6d2a646e9858ad59a055aab8aab8ccaa69f4d4a801d4a930ba8a48dd283abb29689b5a9c556893555,
  0xab86d48d85d59d8ada7c8ab58f8556a48aa683daa5968d92a80da9892ba99bc5b47ab56a8c0ab5a1055580354b930aa5a64b52875752984769ab83748bc36b9d8aad7c8a9b8f854ba2c6a5856ea4968ed2a806e98826d59bc2da7ab2d68dca56a10d4a81fd4a94cda4a64dd2858bd29845d5ab82da8bb2b59d8a567e5a95914b49a48ba483b7a4968baaa805b587856d9a02ad7aacab8dc693a10749800f4994c764a64b6a858aea98456aab8aab8d8aaa9d8d537e4d92914ec9a486d483b5d494cad9a9c55a8935569bcaa67abaa58f8d52a10ba9800ba99303b4a64ab5858aad984555ab8aa58d1aa59f4b527e57518f8769a4837483b36a94caada8052d89354b9bc6a57c6ea28dced1a106e98026d59302daa4896b874a569a0d4aad4ea48d8da39f4dd17e4bb28f85d5,
  0x802d4a930ea5a646d2858dd29686d9ab82da8bc5579d8a9a7c9a95914d4aa48da483dba494cbd2a805d58825b59a02b678f52d8dca95a10b498037499307a4a64bb2858b6a96856da9c2ad8bc4ab9d86957e4e928f8f49a4876483b6d494caeaa6456d89655a9a0aab7aad268dcd92a10ec9802dc99305d4a48ada85aab59845567735558a4aa59f4d927e5b528f8ba9a2c5b483d56c94cab5a8055587754d9bcaa57ab6a58dc7529f47698006e993036aa48aad83caab98454bab86a58d8ea49d8ed27e4dd28f86d9a2c2da81f2d6968a96a9cd4a893d4a9bcda47c7ba48dcbd29f45d57e65b59302b6a64a5685ba95984b4978f7498c07a49d8bb27c8b6a8f856da2c2ad8214ab94c695a9c749892f499bc7647ab6d48dcaea9f456b80255a914aaba64593874d92984ec9,
  0x86496b9a052b7acd2a8c0e939f4749802ec99306e4a48aea83eada98455aa9ccab8bcd2a9d8e927e5d928f8dc9a2c5d48215b494cab6a805568835559a0b257adb258dcb929f4ba97e6ba9930574a48ab583eaad96855577354b8a46a59d87527c97528f86e9a2c56c82155a930aaba8054b896d4a9a0ea57aaea48dcdd29f46e97e66d591455aa64aaa85ba95984d4a773b498c0ba49d8bd27c8bb28dc5b5a2c4d682152d94ca95a80b4989f7499bc7a47ab7648c0b6a9f45757e696b9144aba4869585ae93984749772ec98a46d49d8aea7c8ada8f855aa10cab83cd26968d92a80ec9884dc99bc5d47ab5b48c0ab59f4556803555930b25a64d9285bb92984ba9772b698a45749bcab57c8aab8f854da2caa58216a5968752a80ba98826e99a036a7ab55a8c0aab9f454b,
  0x8dcba9a2c5b482156a930aada6455588354b9a0725790ec58c07529f4b697e6ad991455aa2caab85caa6984d4a773d4a8a4ea49d8dd27c8dd28dcad5a1055a82155694ca96a80d4a884b4b9bcba47adba48c0bb29d85b57e8aad91452da48a9583f6959847497737498a47649bcb6a7c8b6a8dc96ba1052d804d2b94c693a80749884ec99a06e47ab5d48c0ada9f495a7e7a56930d2aa64e9285bda2968dc9772ba98a45b49bcad67aeaad8f8555a2cb29821b2594cba2a80ba9884ba99a05b479156a8c0aad9f45557e954b9146a5a6475285b752968ae9756ad98a455a9bcaab7caa968f8d4aa2cea583cea494cdd2a646e98846d59a055a7915558c0a96a10d4a803b49930ba4a48dd285abb29685b57569ad88852d9d8a957cb6958f8749a2c7a483d76494cb6aa64575,
  0x968d52775751888ba99bc3b47af36a8dcaada1055580754b9306a573aea586c7519a07687756e58c036a9d89ad7cca5b8f854ba486a585aea2968ed1756dd18885d59bc2da7af2d68dca56a2cd2a821d4994cda2a64dd1884bb19845d57745b58a42b59f4a557e9655914b49a48ba2867762968ba9756b6988856c9bcaad7aeaab8dc653a10745820ec594c752a64b69868ad99a056a7915568c0aaa9f4d52805d4a914ea9a485d483edd2968ad9756ab58885569bcaa67cbaa58f8b52a2cba8821ba894cbb2a649b5868aad98455579154b8c06a59f47517e7751930768a48b7283eb6a94c96b772a5a888d2b9bc6a57caea28f8ed1a2c6e48215d4930adaa6495b87ca569a0d2a791d458dcda29f4dd17e6ba99145b4a48ad68412b59689557596538a4b459d8ba27cb752,
  0x9d8a567e9a95914d4aa48da4841ba4968bd2758baa86c5b59a02b57af4ad8dca95a10b4980774994c7a4a64bb2868b6a96856d79055a8a4cab9d86937e8e92914f49a4876484b6d494caea756ad588855a9bcaaa7afaa58f8d92a10ec9804ba99305d4a64ada868ab598455677554d8c0aa59f4d527e97528f8ba9a483b484336a94caad73caab88854b9bcaa57af6a58dc752a107698046e993036aa48aad868a9b98454b790d4a8c0ea49f4ed27e6dd28f85d5a2c2da8412d6968a56757a95888d499d8da47cbba48dcbd29f45d58065b59302b5a64a568686959a0b497917498c07a49d8baa7e8b6a8f856da2c2ad824aab968653774e92888ec99bc7647cb6d48dcaeaa1056a80755694caaa73baa586cd92984ec9790da98c05d49d8ad97caab5914556a48aa6841aa5,
  0x71f5d4850ada98455a7775568a4d269f4d927e9d928f8dc9a2c5d484b5b494cab573caad86c5559bcb257afb258dcb529f4ba9806b69930574a48ab584caab98454d77754b8a46a59d87527e8ed28f86e9a2c36a82f55a94caab758a96888d4a9bcea47cbda48dcdd29f46d97ea5b59304d671f52d850a95984d4a791b498c0ba49d8bd27ccbaa8f85b5a2c2b68294ad94ca957596938887499bc7a47af7648dcb6a9f456d7ea55b9144ab73ad2a86ce92984f49774ec98c06d49d8aea7ccad68f855aa2caab840b26968d92759d92888da99bc5d47af5b48c0ab5a10556807555930aa571fb2586c752984ba9774b698a456a9d8ab57ccaab8f854ba2caa584b6a5968752758ed286c6e99bc36a7af55a8c0aab9f454b822d4a94cea473bda4850dd29846d97745b58a44d6,
  0x794ea58dc7529f46e97eaad991455a71f556850a96984d4a777d4a8c0ea49d8dd27ccdd28dc6d5a2c55a82f55594ca9573da95888b499bcba47af7a48c0bb29f45b57ec9ad91452d70352b850695984749776f498a47649d8b6a7ccaea8dc96ba104ab84cd2a94ce93758e9286cec99bc6d47af5d48c0ada9f455a807956930d2a71fb25850d92984dc9774ba98a45b49bcab57ccaad8f8555a2cb25827b25968b9275975286cb699a05747b156a8c0aad9f45557eb54b9306a571eea58507529686e97746d98a455a9bcaab7cea96914d4aa2cea584cda494cdd2758db286c5d59a055a7935358dca95a10d4a807b49930ba473b7a4850baa9685b575a96d8a452d9d8a957cd6938f8749a487a484c76594cb6a73cada86c56b9a04ab7b0d2a8dce92a10f49806ec99306d4,
  0x81352b94c6a573eea386c7519a07647b16d48c0b6a9d896b7eea5a914d2b720d4a850ea2968ed1776dc98a45d49bcada7b32b68f8a566e7a55818d2594cda2759ba286cba99a05b47955ac8c0aad9f45557ed653914b2571f745850752968ba975ab698a456a9bcaad7b2aab8dc64ba2c725830ea594c75273d5d286cad99a055a7955568c0aa6a10d4a807d4a930ea471fba4850dd2968ad575aab58885569d8a967cfa958f8b496e7749834ba494cbb273cb6a8509ad9a052d79552b8c06959f4749806f4993076471f6d4834aea96896b776a568a4d2a9bce937eae928f8ec96e6dc98185d494cada73d2b586c9569a0d2a7b1b258dcd929f4dc97eaba99305b471f56c834aad96855577764b8a4b259d8b927cd7528f8b69a2c57483056b930aad73caab86c54b9a06a5,
  0x86c5b59bc2b57b34ab8dc6956cb69381874994c76473f754850b6a98456d79455a8a4aab9d8653808e92914ec9704ea98346d4968ae975aad58885569bcaaa7cfaa58f8d926e7d527fcba994c5d473d5b2850ab598455679554d8c0aa59f4b527f7751930ba870376983436a94caad75aaab88854b9bc6a57b2ea58f87516e6ed17fc6e593036a73d2da86ca5a984d4b794d4a8dcea29f4ed17eadd18f85d57025b58342b6968a5675ba558a4d499d8da27cdba28dcba9a105b58145b59302b57214ab86c6559a0b457957458c07629f4ba97ecb6991456c70555a834aab968653778e8a888ec59d87527cf6d28dcad9a1055a83055794caaa73faa586cd4a9a0ea5794ba58c05d29d8ad97ecab591455670354d834aa5984b527777518a4ba49bcbb27cd36a8dcaada10535,
  0x8f8ba9704ba98345b494cab5740aad8885559bcaa57b3aa58dc7526e77527fcb6993056a72356a850aab98454b77954b8a46a59f47527f8ed28f86e96e86d583455a94ca9b75ca96888d4a9d8ea47cfda48dcdd26cabaa7fc5b59302d67234ad850a959a0d49795b498c0ba49d8bd27f8baa8f85b56e856b8184ad96869575b6938887499bc7a47cf7548dcb6a9f456d81455a930cab73ed2686ce92984ec9794ec98c06d49d8aea7d4ad5914556705555834aa5968d92777d92888ba99bc5d47b35b48dcab56caaad7fc54d930aa573faa586c752984ba97787698c036a9d8aad7d0aab8f854b720d4a834ea596875175aed28886e99bc36a7b335a8c0a9ba1054b830d4a94cea473fda286cdd29845d57785b58a42d69f4a567eda95914d49705b49850ba4968bb275ab6a,
  0x984d4a797d4a8c0da49d8dd27dcdb28f85b56e89ad81853594ca9575da95888b499bcba47b37a48dcbaa6cab6a7e096d91452d72352b850693984749778f498c07649d8b6a7dcada8dc56b706956834d2a968e9275de92888ec99bc6d47b35d48c0ada6caab57fc556930b26723b2586cd92984da9778ba98a45b49d8ab57dcaad8f85556e954b834b2596879275b75286cb699bc5747b556a8c0aab6aea977fc54b9306a573eea4850ed29846e977a6d58a455a9bcaab7f0a96914d4a705d49834da4968dd275adb286c5b59a04d67b552d8dca956cba957fcb4994cba473f7a4850baa9685b577856b8a44ad9d8a957db693914749704f4983476494cb6a75cada88855a9a0cab7b4d2a8f8e926e9e927fcec99306d473f5d4850ad698455a77b5558c0b269f4d927edd92,
  0x6b12d67fca56930d2a725d26850e92984ec977adc98a45d49bcada7dc2b58f8a566eba55818b25968d9275db9286cba99a05b47b756c8c0aad6b0aab7e064b930b25723725850752968b69778ae98a456a9bcaad7c0aab8f854b706d4a818ea594c6d275cdd286cad99a055a7995568dca966cda957fcd4a930da473fba4850dd29685d575eab58a45359d8a957d5a958f8b497057498347a494cbb2740b6a86c9ad9a052d79952b8c06936e8e927fcf499307647236d4850ada96896b77aa568a4d2a6afd257e0e928f8ec96e8dc98345d494cada740ab586c9569bcd2a7b5b258dcd926cdb927fcba99305b472356c834aad98455577b64b8a4b256937257e07528f8b696e8ae981856a94caad740a9b86c54b9a06a57b4ea58dc6d26ccdd27e0ad593055a723556850a96,
  0x74175286cb6a9a056a79b55a8a4aab6ccca67fce8a914ec5708ea58505d2968ad9760ab58885566935557c4aa58f8d4a6ebd52834ba894cdd27415aa850ab59a055679b54d8c0a956b16a57fc751930ba870776583436a9689ad75ea9b88852b692d2a7e0ea28f8f516eaed17fc6d594c36a7412d686ca56984d2b7b4d2a8dcea26cdda27e0dc99305d47075b58342b6968a5677ba558a4b45693b457c4ba28f8ba96e8b697fc56d9302ad7412ab86c6539a0b457997458dc7526cd6d27e0ae991456a72355a834aab96854b77ae4a8a4ea5692ea57c45d28dcad96eaab581855694caa6743a95888d4a9bcda47b5ba48c0dd26cd5aa7e0ab591455570952b850a95984b4977b7498a47a46af7647c4b6a8dc9ad6cca5b81852b94c69575ce9286cf499bc7647bf6d48c0aea,
  0x7a86a58f87526eb7527fc76993056a74355a850aab98454b79ad4a8c0ea56ccea47e0ed28f86e97086d583455a94ca9b760a968a4d4a693d497c4da48dcdd26eabaa7fc5b59302b67274ad86ca959a0d4979bb498c0ba46cd7647e0b6a8f85b56ec56b8344ab96869575f693888749692f497c47548dcb6a6ceada81855a930aab740ca686ce929a0ec97a4ec98c05d46b15b47e0ab5914556709555834aa5984d9277bd92888ba9676ba97c45b28dcab56ceaad7fc54d94caa57416a586c751984ba97a47698c036a6b155a7c4aab91454b724d4a834ea396875177aed18886e56766d57a82da8f8a5a6eba56818d4a94cea275dda286cdd19845d57865b58c02b66b14ad7e0a55914d49725b45850ba2968ba975eb6a8885ad67656b7a84ab8dc6556eb69381874594c762,
  0x81852d968a95761a95888b496797497c47a48dcbaa6ceb6a7e056d93052d72752b8506939847497a4f498c07646b16d47c4ada8f855b708956834d2a968e9277de92888ec9676da97a85d48dcad66ceab57fc555930b26743b2586cd92984da9788ba98c05b46b156a7c4aad8f855570954b834b2596875275f752888b69676ad57a855a8c0aab6cea977fc54b9306a5740ea486ced29846e97886d58a455a6b35367e0a96914d4a709d49850da4968dd2760db286c5b56769ad7a84ad8dca956cfa95818b4994cba4741764850b6a9845b578656b8a44ad69552b7e0693914749708f49834754968b6a75eada88855a6779567c4d268f8e926ebd927fcec994c6d47435d4850ad59845567a35558c0aa56b3b257e0d92914ba9708ba98345b494cab5760aad88854d67954b,
  0x8a45d46b35b47c4ab58f89566efa4d834b25968d92761b9286cba9678b697a856a8c0aad6b4aab7fc64b930b25727725850752984b69788ae98a456a6975567c4aab8f854b708d4a818ea59686d2760dd286cad565aab57a85568dca966d1a957fcd4a94cda4743ba4850db29685b5788aad8a453569752b7c4a95914b497097498347a494cbaa760b6a86c96d65ca5b78c52b8dc6936eae927fcf499307647436d4850ada96855b7849568c0d2a6b3d257e0e928f8ec9708da98345d494cada744ab5888956679a4d7a8b258dcd926ebb927fcba99305b472756a850aad98455578754b8a4b256b36a57e07528f8b696ecad983456a94caab744a9b86c54b694d4a7c4ea48dced26cedd27fc6d593055a727556850a9665ba9578cd498c0da46b3ba47e0db28f85b56ec9ad,
  0x914ec5726da58505d263f5b2754ab58a455669754d7c4a958f8d4a70bb49834ba494cdd27455aa86cab565caab78c52b8c0a956d16937fc749930ba470b76585036a9689ad76ca5b88852b6b2d2a7e0e928f8f496ecec98346d494caea7492d686ca56679a557a8d268dce926d1da27fcdc99305d470d5b58342b563f4ad770a558a4b25697b257e0b928f8ba96ecb6981856c94caad744aab86c64b65d64b7a87258dc7526cf6d27e0ae993056a72755a834aab63ea9678cd4a8a4ea5696da57c45d28f8ad96ecab581855694ca96761a95888d4a679b497a8ba48dcdb26d15aa7e0aad91455572952b850a956416937707498c07a46b37647c4b6a8dc96d6eea5b81852b94c695760e92888f49678ec97a86d48c0ada6cf2d67fca56930d2a727d2586ce9265bd92770da9,
  0x65ea967a8d4a8c0ea56d0ea27e0ed19146e570a6d58344d66234b5770a968a4d4a697d457c4da28f8dd16eebaa7fc5b59302b67494ad86ca9565fa9378cb458dcba26d17547e0b6a8f856d70c56b8344ab624cab75468b8a4745696ec97c47548dcb6a6eead581855a930aab748ca6888e8a679d8a78cea98c05d46d15b27e0ab591455670d555850aa563faa5770b52888ba9696ba97c45aa8dcab56d2aab81854d94caa574f6a586c75167975178c7658c036a6b555a7e0a6b91452b726d4a834ea365cea2770ed18886d567a6d57c42d68f8a5a6efa55818d4a968ea2761da286cdc965cbaa78c5b58c02b56b54ad7e0a55930d45727b45850ba2641752770b6988856d69655a7a8cab8f86536ef68b81874594c75276b6d286cae965cad578c55a8c0aab6d0ca67fcd4a,
  0x6d2b6a7fc56b9304ad73352b85069367ae9278cf498c07546b56d47e0ada91455a70f956834d26641d25770d92888ec967ada97c45d48dcad56d2aad7fc55594cb25747b2586cd9265f75278cba98c05b46b556a7c4aad91454d70d54b8346a5624ea5770752888b6967aad57a855a8dcaab6eea96818d4a930ea576cea486ced265cdd27706d58c055a6b55367e0a96914d4a729d49850da463fba4754baa8885b567c5ad7a84ad8dca956efa93818b4960774973876486cb6a65cb6a77056b8a44ab6b4d2b7e069391474970aec985075463f6d4754ada88855a6975567c4d268f8e926efd92818ec994c6d47505b5850ad565caad78c5558c0aa56b5b257fcd92914ba970cba98345b264156a754aad88854d67d54b7c46a58f87526ef7527fc76994c36a74f55a850aab,
  0x754b92888ba967cb697a856a8c0aad6d4aab7fc64b60764a71cf2586c75265f6d2770ae98a456a6b75567c4a978f854b70ed4a850ea4641da4754dd286cad567aab57a85568dca966d3a95818d49607b49738ba4850db265eb6a7709ad8a452d69b52b7e0a95914b4970d7498347a4641754754b6a86c96b660a5b7a852b8dc6936eee927fcf49606ec97386d4850ada642ab678c9568c0d2a6b5d257e0e92914ec970cda98345d46235ac754ab588895567d64d7a8b258f8d926ef7527fcba95eab6973856a850aad642aab77054b8c0b256b4ea57e07528f8b6970cad983455a625556738a9788854b698d4a7c4ea48dced26eedd27fc6d593055a73353686ca9665fa9578cd498c0da46d1ba47e0bb28f85b56f09ad83452d62552b754a93888b496997497c47648dcbaa,
  0x7c4a95914d4a70fb49834ba4609b657545aa86cab5660aab78c52b8dca956d56937fc7495eaf49738764850b6a64355a754a5b8a452b6b6d2a7e0e928f8f4970cec98346d46095b57382d6888a5667da557a8d258dce926efd927fcdc95eaba97005b58502b56434ad770a558a4b256b7b257e0b928f8ba96f2b6983456c62555a738aab86c64b67d64b7a87258dc7526d36d27fcae95eaad571c55a834aab65ea9678cd4a8a4ea5698da57e05d28f8ad56f2ab581855662552d754a95888d4a67db497c4ba48dcdb26d4b6a7e0aad5eaa6b71c52b850a9564369378c7498c07a46b77547c4b6a8f896d6f2a5b81852b626d26770e92888f4967cec97a86d48dcada6d52b67fca565eba55738d2586ce9265fd92770da98c05d46b55b47c4ab58f895670fa4d834b25625b25,
  0x8342d66454ad770a968a4d4a69bd457e0da28f8dd16fcbaa7fc5b560856d7384ad86ca95661a937a8b458dcba26d57527e0b6a5eaada70055b8344ab628ca777068b8a474569aec57c46d28f8ae96f4ad581855a60b556754ca6888e8a67dd8a78cea58dc5d26d55b27e0ab55ceaad71c54d850a95643a95770b528c0ba869bba57c45aa8dcab56f4aab81854d60b52b73869588875167d75178c7658c036a6d555a7e0a5b5eca5671cd4a86cea265fea2770ed18886d569a6d57c42d68f8a566f3a55834d46627d45754da286cdc967cba978c5b58c02b56b94ad7fca555ed68b71cb45850b9265f752770b698a456c67f55b7c44ab8f86536f168b818745626ea57546d286cae9660ad57a855a8c0aab6d4a967fcd4a609d4a71cda58505d26435b2770ab58a455669b54d,
  0x8c07546d56d47e0ada5d0ab5700956850d26645d25770d92888ec969ada97c45b48dcab56e0aad81855560b54b738b2586cd9267d75278cba98c05b46bb56a7e0aad5d0a9b70054b8346a5644ea577075288876967ead57c455a8dcaab6f4a96818d4a627d4a754ea486ced2660dd278c6d58c055a6b95357e0a965eda9571cd49850da4643ba4770baa8885b567e56d7a84ad8f8a956f5a93818b4960b74975476486cb6a662b5a77056b8c04ab6b8d2b7e06935ece9271cec98507546436d4754ada8a455a69b9567c4ca68f8e9270fd92818ec9608ba97385b486cab5660aad78c5558c0aa56d5b257fcd525ed752700ba98505aa64556a754aad88854d69b54b7c46a55b2ea36e475281876560a6d573855a850a9b67ea967a8d4a8c0ea56d4ea27fced15ecdaa7006d5,
  0x60d64a738ea586c7526636d2770ad98c055a6bb5567c4a975d2a9671cd4a850ea4645da4754dd2888ad5680ab57a855659752d6e4a95818d4960bb49738ba486cdb2660b6a7709ad8a452d6bb52b7e0a955d1693700749850764645754754b6a86c96b680a5b7a852b5b2d266e4e92818f4960aec97386d4850ada662ab678c9568c0d266b9d257fce925edd92700da98345d46455ac754aad88855567f64b7c4b255b3b256e47527fcba960ab6973856a850aad646a9b78c54b8c07256b8ea57e07525ed6d2700ad583455a629556754a978a454a69bd4a7c4ea45cfda46e4dd27fc6d55eeab573853686ca96663a9578cd498dcda46d5ba47e0daa5d0b6a7009ad83452d62952b754a938a4b4969b7497c47645b36d46e4b6a7fc96b5ee95771c52b86c69367ee9278cf49,
  0x664aab7a852b59952b6c86937fc74960cf49738764850b6a6474da770a5b8a452b6bad267e0e925efe92700ec98346d460d5b57542d6888a56681a557a8d255b5d256e4d927fcda95eeba971c5b58502b56474ad770a4d8c0b256bbb257e0b925d1752700b6983456a62955a738aab88864b68164b7a8725596ea56e46d27fcad95eead571c556850aab662a9678cd4a8a4ea56d4da47e0dd25d15aa6e4ab583455662952d754a95888d4a69bb497c4ba45b3b646c8d6a7fcaad5eea6b71c52b850a9566369378c7498c07a46c37547e0b6a5d12da6e4a5b81852b644d26770e92888f4967eec97c46d45975b56c82b67fca5660ba55738d2586ce92663d9278cda98c05d46bb5ac7c4ab55d12ad700a4d834b25629b25770b92888ba967eb697a856a5b355a6c8aab7fc64b,
  0x6e4baa8185b560c56d7384ad86ca55681a8b7a8b455997456c87527fcb6a5f0ada70055b8344ab646ca777068b8a47456a8ec57e06d25d35d46e4ad581855a62b556754ca6888e8a681d8a7a8da5598ba56c85b27e0ab55f0aad71c54d850a95647a9578cb498a4ba569eba57c45aa5d156a6e4aab81852b60d52b75469588875168174978c7655966d56c855a7e0a5b5f0a56738d2a86cea2663ea2770ec98a46d56a65b57c42d65b74ad700a55834d26629d45754da2888dc9680ba978c5b557c56b6c84ad7fca555f164b71cb4586cb92663752770b6988856d6c255a7c4aab5b6c976e464b834725628ea57546d286cae9680ad57a85565975566c8a96818e4a60dd4a71cda58505d26635b2770ab58a455669f52d7e0a955d3a95700b49834ba4629b6575456a86caad,
  0x770d9257bd92690da97c45b45b756a6e4aad81855560f64b738b25888b9268375278cba957cb656c856a7e0aad5d4a9b70054b8506a5646ea57707528887696a8ad57c455a5b75566e4a96834d4a62bd4a754ea486ced2680daa78c6d557caad6ac5357fca965f1a9571cd49850da4663ba4770baa8885b568896d7c44ad5b752b6e4a93818b4562974975475486cb6a666b5a78c55b5989566acd277e069360ce8a71cec98507546476d4770ad68a455a6a39567c4ca65d3d25700d92818ea960cba97545b486cab5664aad78c55559954b6c8b257fcb525ef75271cba98505aa64756a754aab8a454d69f54b7c46a55b6ea370075281876560e6d573855a86ca9b680a967a8d4a59bd466e4ea27fced25f0daa7006d58504d66494ad770a558a4d4a6bbd457e0da25d3b92,
  0x7c4a975f2a9571cd4a850ea4649da4770dd255f5aa674ab57a85365b952d6e4a95818d4960fb49754ba486cdaa666b6a770aad57ca5b6ac52b7e0a935d569371c7498507646496d4754b6a88896b68ca577a852b5b8d26700e92818f4960eec97386d486cada668ab578c95657fa4d6c8d257fcd925f1d92700da98505b46495ac754aad544aab69064b7c4b255b7b256e4752818ba960cb6973856a850aad666a9b78c64b598e4a6acea57fc7525f16d2700ad583455a649556770a9655fa95690d4a7e0ea45d3da46e4dd27fc6d560eab573853686ca96665a957a8d49599b496c8ba47e0daa5f0b6a7009ad83452d62d52b770a935616936907497c47645d36d46e4b6a7fc96b60e956738d2b86c693680e9278cec9598ea96c86d47e0ada5d4ab571c956850d26649d25,
  0x85036a6692da770a5b57ea566acd267fce925f3e92700ec98346d462d5b57542b65434ad674a557c4d255b9d256e4d927fcda960eba971c5ad8502b564d4ad78ca4d57f64b6acb257e07925f1752700b6983456a62d55a754aab544c9769064a7a8f255b8ea56e46d27fcad95f2ad5738556850a97668a9678cd4a59bd4a6c8da47e0dd25d55aa700ab583455662d52d754a95561a95690b497c4ba45b7b646e4d6a7fcaad5f2a5b71c52b86ca9566769378c74957cf496c87547e0b6a5d52d66e4a5b83452b648d26770e92561e92690ec97c46d459b5b56c82b6818a5660fa55738d2586ce92681d9278cda957cba96ac5ac7e0aad5d52ab700a4b834b25649b25770752561752674b697c456a5b755a6c8aab7fc64b62b64a738ea586c7526676d278cad957eab56ac556,
  0x59d7456e47527fcb6a5f2ada70055b8504ab64cca777068b57ee8a6acea57e06d25d75d26e4ad583455a62f556754ca6547d15690d8a7a8da559cba56c85b27fcab55f4aad71c54d850a95669a9578cb4a57f74a690b657e056a5d755a6e4aab81852b62d52b754693544e936747497a876559c6d56c855a7e0a5b60ea56738d2a86cea2669ea278cec957edaa6905b57c42d65d74ad700a55834d2562dd45770da2561b92674baa78c5b559c56b6c84ad7fca555f3a4b738b4586cb9266f752770b6957cada6ac55a7c4cab5bac9770064b83472562cea57546d25615d2674ad57a855659d5566e4c96818e4a60fd4a71cda586c5d266f5aa770ab5562aad6ac52d7e0a955d7a95700b49850ba462db6575456a54555a674aab7a852b59d52b6c869381874960ef4971c755,
  0x61364b754b25547b2567475278cba959cb556c856a7e0aad5d8a9b71c54b528d4a63cea577075257f6d2690ad57c455a5bb556700a96834d4a62fd4a754ea4563da4674daa78c6d5580aad6c852d7fca965f5a9571cd49527b49658ba4770baa562b6a69096d7c44ad5bb52b6e4a93834b4962d7497547545456d4674ada78c55b59c9566acd277fc693610e9271cec950ada96586d4770ad6562ab56909567e0d265d7d25700d92818ea962cba97545b254556a658aad7a854d59d54b6c8b257fcb5260f75271cba98505aa65356a770aab562a9769054b7c46a55d4ea5700752818765612ad575455a545536674a967a8d4a5b9d466e4ea27fced25f4daa71c6b58504d66534ad770a5557fa956acd457e0da25d7b92700baa8185b561256b7384ad5454ab674a8b7a8b45,
  0x674ab57c45365bd52d6e4a95818d4962fb49754ba4547b54658d6a78caad582a5b6ac52b7e0a935f569371c74950cec963c6d4770b6a5632d6674a577a852b5d6d26700e92818f49612ea97546d452b5b56582b578ca5659fa4d6c8d257fcd925f5d9271cda950ab6963c56c754aad5652ab690a4b7c4b255bbb25700752818ba9612b6973856a54555a658a9b78c64b59d64a6c8ea57fc7525f56d2700ad550aab563c556770a96565a956acd4a7e0ea45d7da46e4dd28186d5612aad73853652b52d674a957a8d4959db496c8ba47fcbaa5f4b6a7009ad83452d65352b770a935636936907497e07645d76d46e4b5a7fc95b62ea56738d2b546d26674e927a8ec959cda96c86d47e0ada5f4ab571c956850d2664fd2578cd9257fd92690ba97c45b45d756a6e4aad818555,
  0x700ec950cdaa6205b57542b65494ad690a557c4d255bdd256e4d92818da9614ba971c5ad50e55b6584ad78ca4d58364b6acb257fcb925f5752700b694f0ad563c55a754aab548c9769064a7c4f255baea56e46d27fcad9614ab573855652b52e658a967a8d4a59fd4a6acda57e05d25f55aa700ab54eeaad62052d770a95565a95690b497c4ba45bbb656e456a7fcaad5f8a5b73852b52b52b65869378c74959cec96c86d47e0b6a5d92d6700a5750ca5663cd26770e92581e92690ec97c46d45a15b56e42b6818a56613a4d738d25547d25674d9278cda9580b696ac5ad7e02ad5d92ab700a4b50d64b63cb25770752563752690b697c456a5bb55a6c8aab81864b62f64a738ea552aea56746d278cad9580ab56ac5567e0a975f4a9671cd4a50dd49658da4770dd25655aa,
  0x77068b59ee8a6acea57e06d45db5d4700ad54f0aad620956754ca6565d15690d8a7a8da55a0ba56e45b27fcab55f8aad71c54d52d52b658a9578cb4a58374a6acb657e056a5db55a6e4aab4f2a9762052b754695548e9369074a7a876559e6d56c855a7fca5b614a56738d2a52bd45674e9278cec9582daa6906b57e04d65db4ad700a554f3a8b63cd45770d92565b52674baa7a85b55a056b6c84ad7fca55615a8b738b4552b72565875278cb6a582ada69055b7c44ab5d8c9770064b50ce8a620ea57706d25655b2674ad57a85565bd5566e4c96818e4a613d4a738da552aba56585aa770ab5582aad6ac52d7e0a955d9a9571cb4950d74a620b6575456a56555a674a5b7a852b5a152b6e469381874961b74971c75552a6d565855a770a5b582a566c8d267fce925f5e92,
  0x7e0aad5fca9b71c54b52cd4a63cea578c7525836d2690ad57c455a5db536700a964f3a95620d4a770ea4565da4674daa78c6d55a0aad6c852d7fca955f9a95738d4952db49658ba4770baa582b6a69096d7c452d5bf52b700a934f36936207497547545656d4674b5a78c95b5a09566c8d274d2d26604e9271cec952ada96586d4770ad6566ab56ac9567e0d265dbd25700d9250fd52620ba97545b454956a674aad7a854d5a164b6c8b254d3aa560475271cb6950eb5565856a770aab566a9769054b7e06a55d8ea57007524f16ca620ad575455a549536674a967c4d4a5bdd4a6e4ea24d3da4604daa71c6b55109ad63c4ad78ca95583a956acd457e0da25f5b94700baa4f0b6a60496b7544ad54952b674a8b7a8b455bb7456e47547fcb6a600ada71c55b52a95663cd27,
  0x52db6567456a78caad586a5b6ac52b4b952b5e869371c749510ec96586d4770b6a5672d6674a577c452b5dad26700e924f3e92620ea97546d452f5b56582b67a8a565a3a4d6c8d254b9d25604d9271cda9510b6963c56c770aad5692ab690a4b7c4b255dbb257007524f3752604b6975456a54b55a658a9b78c64b5bd64a6c8ea54b6ea55e86d271cad5510ab563c556754a97582a956acd4a7e0ea45dbda4700db24f35aa604aad73853654b52d674a957a8d495a1b496e4ba44d3b545e8b6a700a6d510a5b63c52b770a935676936ac7497e07645dd6d46e4b5a4f32b6604a5773852b548d26690e927a8ec95a0ea96c86d44d35b45e8ab571ca56511a4d658d2578cd92583d92690da97e05b45db56a6e4aad4d72ab620a4b754b25549b256747527a8ba95a0b596c856a,
  0x5bfd25700d924f3b52604baa71c5ad52e55b6584ab78ca4d587a4b6c8b254bb7255e8752700b69510ad663c55a754cab54cc9769064b7c47255c0ea56e46d24f35b2604ab573855652f52e674c967a8e4a5a3d4a6acda54b8ba55e85aa700ab54f4aad63c52d770a95569a95690b497e0ba45c1b656e456a4d755a604a5b73852b52f52b6586937a87495a16c96ac6d549a6d55e84d6700a57510a5663cd2678ce92583e92690ec97a86d55c65b56e42b64d74ad604a55754d2554bd25674d9278cda95a2b696ac5ad49c55b5cc4ab71ca4d51164b63cb25770b52583752690b697c456a5c155a6e4a9b4d6c9762064a738f25548ea56746d278cad5584ab56c85564b952e5e8a9671cd4a52dd4a63cda57705d25695aa690ab57c45565bf52d6e4a954f3a93620b49754ba4,
  0x620956770d26569d15690d8a481d525b0ba96e45b24d956a5e8aad73854d53152b658b1578cb525a37526acb6549ead55cc55a700aab4f6a9762054b754695568ea36907527a8b655a8ad56e455a4d7536604a96738d4a54bd46674ea278ceca586daa6ac6b549c9ad5cc4ad700a55513a8d63cd45770da2569b52690baa7a85b55a696b6c84ad4d94ab604a8b738b4552f72567475278cb6a586ada69055b4ba9565ccc9770068b510e8a63cea57706d25695b2674ad57c45565c39566e4c964d9d15620d4a738da552eba56585aa78cab5586aad6ac52d49d52b5e8a9571cb4a51174a620b6577056a56955a674a9b7a852b5c152b6e46934d6e9360474973875552e6d565855a770a5b5a2a566c8d264bbd255e8e9271cec9510daa6206b57544b65694ad690a557c4d25,
  0x690ad549eab55cc556700a964f7a9563cd4a770ea4569da4674daa48156a594aad6c852d4bd52b604a95738d4952fb49658ba478cdaa586b6a690a6d482a5b5cc52b700a934f76936207497707545696d4674b5a78c95b5a8a576c85274d8d26604e92738ec952eda96586d4770ad6588ab56ac95649fa4d5ccd2571cd92513d52620ba97545b456b56a674aad7a894d5a5a4b6e4b254d9aa560475271cba952eb5565855a770aab56aa976ac54b4bad4a5ccea57007525116ca620ad575455a54d536690a967c4d4a5c3d4a6e4ea24f5da4604daa71cab5512aad65852d78ca95587a956acd454bbb455e8ba4700baa4f4b6a62096d7544ad54d52b674a9348168b5b07456e47544d76d4604ada71c95b52e95663cd2778c68b5a0e8a6acea949cda95e85d4700ad64f4aad,
  0x71c74952f6c963c6d577035a56d4d6690a5749ea565ccd26700e92513e92620ea97386d55305b56742b67a8a565a9a4d6c8d254d9d25604d9271cda9514b6963c56d7702ad56d4ab690a4b4a164b5ccb25700b524f7752620b6975456a54f55a658a9b466c975b064a6c8ea54bcea56046d271cad5514ab563c556770a97588a956acd4a49fd4a5ccda57005b24f75aa604aad75453654f52d674a95465a935b0b496e4ba44bdb555e856a71caad514a5b63c52b770a935876936ac74949eec95cc6d4700b5a4f72b6604a5773852b568d26690e92481e92594ea96e46d44bd5b55e82b671ca5652fa4d658d2578cd92587d926acda949cb695cc56a6e4aad4f72ab620a4b754b2554db25690752481752594b596c856a4d95565e8a9b71c64b52f64a658ea578c7525896d2,
  0x44949b594a8b6c8b254bd7255e875271cb6a514ad662055b7544ab56cc9769068b4a0e4a5b0ea57006d24f75b2604ab573855654f94e674c96467c95594d4a6c8da54bcba55e85aa700ab5514aad63c52d770a9556da956acb4a4a174a5b0b656e456a4f755a604a5b73852b53352b674693466e935947496ac7554bc6d55e84d6700a57514a56658d2678ce92589e92690ec949edaa5b05b56e44b64db4ad620a55754d2554fd25674d92481b52594b6a6ac5ad4a255b5e84ab71ca4b515a4b63cb2578cb5258f752690b69482ad65cc55a6e4cab4dac9760464b75472554cea56746d24655b2594ab56c85564bd52e5e8c95738d4a531d4a63cda57705d258b5aa690ab5484aad5b052d700a954f7a93620b49754ba454fb5567456a46555a578a5b6c852b4bd52b5e8693,
  0x4dd56a604aad73894d533a4b658b25467aa55947526acb654a2ad55e855a700aab4f8a9762054b448d4a55cea56907524856ca5b0ad56e455a4dd536604a96754d4a54fd46674ea2467da4594daa6acab54a29ad5cc52d71ca95515a9563cd45770da258db54690daa484b5a59496b6e44ad4dd52b604a8b738b4554f7456747544676d4578ada6ac95b4be9565ccd1770068b530e8a63cea57706d25735b4690ad6484aad5b094e6e4d164f7d15620d4a738da5532ba56745aa46556a578aad6ac54d4bf52b5e8a9571cb4a51574a63cb6577056a57355a674a9b484a575b052b6e46954dae9362074a738b55532ad56585564674b6594a566c8d2a4bdd26604e9271cec9514daa6206b57704b656f4ad690a55485a4b5ccd25700d924f7b52604baa7385ad53295b6584ab,
  0x540da56905b248556a594aad6c852e4dd52d604a95738d49533b49674ba444bb5557856a690a6d4a2a5b5cc52b700a934f969363c74942cea955c6d4674b5a4852b6594a576c85274dcd26620e92738ec9534da96586d444b5ad5782b56aca564a3a4d5e8d2571cd92517d52620da942ab6955c56a674aad46b49b5b0a4b6e4b254ddb25604752738ba9532b5565855a44b556578a976ac64b4bf64a5ccea571c7525156d2620ad575455a573536690a96485a955b0d4a700ea44f7da4604daa71cab5534aad65852d44b52b578a956c8d494bfb495e8ba4700daa516b6a62096d75452d55352b690a9348568b5b07496e47544f76d4604ada71c95b516a57658527466d26594e926acec94bcda95e86d4700ad64f92ad63c956770d2656fd25690d924a1b525b0ba96e45b4,
  0x5ccd2671ce92515e92620ea9410daa5405b56744b64694ad594a4d6e4d254ddd25604d9271cda9538b6a63c56d43055b55c4ab6aca4b4a3a4b5ccb25700b52517752620b69410ad654055a674c9b46ac975b064a6c8ea54dcea56046d271cad5518ab565855644d52e578c956acd4a4bfd4a5ccda57005d24fb5aa620aad40ea5d54052d674a95487a935b0b496e4ba44c1b5560456a71caad518a5b63c52b44d5275786936ac7494a36c95cc6d570035a4fb4b6604a5742ea5655cd26690e92485d925b0ea96c86d54c05ad5e82b6738a56535a4d658d2544bd25594d926acda94a2b695b056d7002ad4fb4ab620a4b754b25571b25690b52485752594b596e456a4dd5565e8a9b71c64b54f64a658ea544aea55786d26acad54a2ab55cc5566e4a97514a9563cd4a42dd4a,
  0x62095b44c95655cd1769068b4a2e4a5ccea57006d24fb5b4604ab5412aad54094e674c9646bd155b0d4a6c8da54c0ba55e85aa71cab551caad63c52d43152b578a956acb4a4a374a5b0b6570056a4fb55a604a9b3f6a5754052b67469346ae9359474a6c8b554c0ad55e8556700a57534a56658d2644dd26578e926acec94a2daa5b06b56e44b64fd4ad620a55413a4b540d25690d92487b52594b6a6ac5ad4c295b5e84ab71ca4b519a4b658b2544d725578752690b6a4a2ad65b055b6e44ab4dec9762064b42ee4a540ea56746d24855b2594ab56c85564c192e604c96738e4a535d4a63cda544aba55785aa690ab5486aad5cc52d700a954fba95620b4942d74a540b5567456a46b55a594a5b6c852b4c152b5e86937387495356c963c6d542e6b55784d6690a574a2a56,
  0x6acb694c2ad55e855a700aab500a9763c64b44d54a55cea56907524a36ca5b0ad56e455a4df536620a96413a95540d4a674ea4485da4594daa6acab54a4aad5e852d71ca9551ba9563cd4544db49578b54690daa48935a5b096d6e452d4df52b604a9341568b54074967475446b6d4594ada6ac95b4a6a575cc52771c68b534e8a63cea9430da95785b4690ab64892ad5b0956700d164fbd15620d92413b52540ba96745aa46b56a578aad6c894d4c3a2b5e8b153d7aa552475263cb65430ad555c55a690a9b488a975b052b6e46a54faea562074a4136aa524ad567455646b536594a966c8d2a4ddd46604ea23f3d94508daa63cab543096d55c4ad690a954a3a8d5ccd45700da24fbb54620daa410b5a52495b6584ad46b51b594a8b6c8b454c172560475471cb6a51cad6,
  0x3f7a93540b49674ba444fb5557856a6aca6d4a6a5b5cc52b3bf52750869363c7494316c95406d569035a4894b6594a576c852b4fad26620e92413d92524da96586d544e5ad5782ae6aca564c3a4d5e8d253dbd25508d5263cda9430b6954056b6742ad48949b5b0a4b6e4b254dfb25620b524136d2524b5965855a46b556578c976ac64b4c364a5e8ea53d8ea55086d2620ad5430ab555c536674a97488a955ccd4a6e4ea54e0da56045aa41356a524aad65852d44f52b594a956c8d494c3b495e8ba43d7b5550856a620a6d416a5b55c52b690a934896935b07497007544fd6d4604ada3f72b6524a5765852746ad26594e926c8ec94c0da95e86b4700ad651f2ad63ca56431a4d55cd256acd924a5b525b0da96e45b44e156b6042ad3f749b524a4b674b2546bb25594752,
  0x46d4ad5b0a556e4d254e1d25604d92413b52524b6a63c56d43495b5784ab6aca4b4a7a4b5ccb253db6a5508752620b6a416ad654095b67449b46cc9759464b6e47254e0ea56046d23f95aa524ab565855645192e578c966c8e4a4c3d4a5ccda53beb655085aa620aad416a6d54052d690a95489a955b0b4a6c8ba54e0b5560456a3f955a508a5b65852b45152b5786936ac7494c36ca5cc6d53bcab54ec4b6620a57432a5655cd26690e924a5d925b0ea96c86d54c65ad6044b63f94ad524a4d658d2546bd25594d926acda94a6b6a5cc56d7002ad5034ab620a4b433a4b55cb25690b524897525b0b596c856b4c655b5e849b3f8c9754064a658ea544eea55946d26acad54a6ab55cc5563db52e508c9563cd4a431d4a55cda56905b248956a594aad6e452e4e152d604a95,
  0x4ec5b4620ab64172ad54094e674d16489d155b0d4a6c8da54c8ba56045aa3f956a508aad63c94d451a2b578b156acd4a4a774a5ccb653bead54ec55a604a9b416a5754052b67469546ce955b06ca6c8ad54c8ad55e85563f952e524a56658d2a451d26594e926aceca4a6daa5b0ab53be96d4ec4ad620a55417a4d55cd25690d92489b54594d6a6c85ad4c695b5e84ab3df49b524a8b658b254517255787546acb6a4a8ad65b095b3a29574ec49762068b432e4a540ea56906d24895b4594ab56c89564e392e604c963f9d15524d4a658da544eba55785aa690ab54a8aad5cc92d3bf52b4eca9563cb4a43374a540b6567456a48b55a594a5b6c852b4c752b6046933f8e935246ca63cad5450ab55784d6690a574a6a565e8d263dbd26508e92620eaa430daa5406b56744b6,
  0x55cea56ac7524a96d25b0ad53a2ab54ec536604a97416a95540d4a674ea546cda55945aa6acab54c8aad5e852d3dd52b508a95658d49451b49578b54690daa4a955a5b0a6d3a2a5b4d052b620a9341769354074967475446f6d55942da6ac95b4aca575e85273f8d26524e9263cec9450da95786b4690ab648d2ad5cca563c1a4d4ecd25620d92433b52540da96745ac45356b5942ad6c8a4d4c5a4b5e8b253f9aa552475263cb69434ad557855a690a9b48ca975b064b3dd54a4ecea56207524176aa540ad567455a46f536594a966e4d4a4e3d4a5e8ea53dcd955245aa63cab5434a6d55c52d6aca954a9a955ccd453bfb49508b54620daa41735a52495b67452d46f52b594a8b6c8b454e77456047543f96d4508ada63c95b434a5755c51769068b4c2e8a5ccea53beda9,
  0x5cc52b3df52b50869363c7494356ca55cad569055a48f4b6594a573c0a564ecd26620e92417d92540da96586d54525ad5784ae6c8a564c9a4d5e8d253ddd25524d9263cda9434b6a54056d6904ad48d49b5b0a4b3a5a4b4ecb25620b524176d2524b5965855b4525575784976ac64b4e764a5e8ea53dcea55086d263cad5434ab555c536674c974a8c955ccd4a3c1d4a4d0da56205aa41756a524aad65852e46f52d594a95387a934b4b495e8ba53deb5550856a620a6d436a5b55c52b690a9348d6935cc7493c16a94d06d560435a4194b6524a5765852746ed265b0e923a1d924b4da95cc6d53dc5ad5084ae63ca56435a4d578d256ace924a9d525b0da93beb694d056b6042ad3fb49b540a4b674b2546fb25594b523a16d24b4ad55cc55b3c255750849763c64b45164a,
  0x63c96d45495b5784ab36b49b498a8b5e8b253df6a5508754620b6a436ad654095b6744ab4734975b068b3c0e4a4d0ea56046d24195b4524ab665895645392e594c96387c954b4d4a5ccda53dcb655085aa620aad418aad55c92d690c9548da955b0b4a3c174a4d0b5560456a3fd55a524a5b65852b45352b578693386e954b46ca5ccad53c2ab55084b6620a57436a5655cd26690e934a8e925b0eaa3a4daa4d0ab56044b63fd4ad524a4d674d2546fd25594d92387b544b4b6a5cc56d3c295b4ec4ab63ca4b437a4b55cb25690b524a97525b0b5a3a4ab64b495b60449b3fcc9752464b6586a546eea55946d23855aa498ab55e85563df92e508c9663ce4a451d4a55cda56905b248f56a5b0aad3a4a5d4d052d604a95419a95540b4a658ba5452b5559456a38555a498a5b,
  0x3a5b524d0da96045ac3e156b5082ad658a4d455a4b578b2536baa54b4b525ccb693c2ad54ec55a620a9b41ac9754064b34d54a47cea55b07523a56aa4b4ad56045563fd52e524a96658d4a46fd4a578ea536ad954985aa5ccab53c2a6d4ec52d620a95435a9555cd45690da4491b545b0d6a3a535a4b495b5e852d3fd52b524a8b658b4545372959475436b6d54982da5b095b3c2a574ec51762068b434e8a55cea96906d44935b4594ab63a52ad4d094e604d163fdd15540d4a658da9454ba95785aa36b55b4982ad5cc92d3c3a2b508b1563cd4a43774a540b6569056a48f55a594a9b38aa574d052b6046953fce955246ca658ad5454ab557855636d4ae4b4a565e8d2a3dfd26508e9463ceca434daa540ab56744b648f4ad5b0a553a5a4d4d0d25620d92419b54524d6a,
  0x41ac9555cd4a34dd4a460da55945aa3a556a4b4aad5e852e3e152d524a95658d4a455b4955cb6536ab5549856a5b0a6d3a8a5b4ec52b620a9341b69354074934d6a9460ad55944da38b4b64b4a575e85273fcd26524e92658ec9456da955c6b535056d4984ae5cca563c3a4d4ecd2563cd92437d52540da96585b547856b5944ad38b49b4b4a4b604b253fdb25524b5263cb69454ad555c55b34e55747c4975cc64b3c364b4ec6a56207524376b2540ad567455a477536594a973a6a954d0d4a5e8ea53fcda55245aa63cab5438a6d57852d36d52b498a955ccd493dfb494ecb556205aa41b55a540a5d67452d47352b594a933a76934d0749604b543e16d55242da63ca5b438a5755c527388d264b4e925ccea93c2da94ec6b56202b641b2ae540a56690d2648fd255b0d92,
  0x47c4b65b0a573c4a564ecd26604e93436e92540eaa330daa4449ad5944b638b4ad4b4a4d5e8d253fdd25524d9263cdaa43cb6a55c56d35095b47c4ab5b0a4b3c5a4b4ecb25620b5241b754540b5a65855b45c95b57849b38b4974b464b5e86a53e0ea55246d263cad643aab655c95636d92e498c965cce4a3c3d4a4ecda56205b241b56a524aad67452e47592d594a9538ba954d0b4a5e8ba53e2b5550856a63caad438a5b55c52b35152b4986935cc7493c36ca4d0ad562055a41d4b6524a57332a5647cd265b0e923a7d924b4daa5e86d53e05ad5084ae63ca56455a4d578d2536dd25498d525ccda93c2b6a4d056d6044ad41d49b540a4b674d25475b255b0b523a76d24b4ada5cc55b3e295750849763c64b43964b5786a536cea54986d25b0ad53c4ab54ec536604c97,
  0x508b5463cb6a43d2d654095b336a5747c5175b068b3c4e4a4d0ea96206d44015b55242b63192ae46094e594d1638bd154b4d4a5e8da93e2b695085ac620aad43d2ad55c92d351a2b47cb155ccd4a3c574a4d0b6560456a41d55a524a9b316a5744452b59469538ae954b46ca5ccad53e2ab5508556620a5743aa56578d2a36dd26498e945b0eaa3c55aa4d0ab56044b64014ad540a55335a4d460d25594d943a7b544b4d6a5cc96d3c695b5084ab63ca4d439a4b55cb2536d6a54987545b0b5a3a92d64d095b6044ab40149752464b34ee4a460ea55946d438b5b44b4ab65e89563e392e508c96658e4a457d4a55cda5350b6549856a5b0aad3a925d4d092d620c9541da95540b4a33374a460b5559456a38b55a498a5b5e852b3e352b50869363c74a4556ca55cad5350ab5,
  0x578b2538db254b4b525ccb693c8ad94ec55b62049b41f49754064b35364b47c6a55b07523a96b24d0ad560455a401536508c97334c95460d4a578ea536eda54b45aa5ccab53c6a6d4ec52d63ca9543da9555cd49351b4947cb555b056a3a955a4b4a5d60452d40152b524a93317693460749594b5436f6d54982da5cca5b3c6a574ec527620693456e9255cea9350da94605b55b02b63a92ae4d0a4e604d2641bd25540d92333b52444da95785ad36e56b4982ad5cca4d3e3a4b508b2563cd5243db5255cb69352ad546055b59429b3a94974d064b604aa5400ea55406d23335aa444ab557855638d52e4b4a965e8d4a3e3d4a508ea563c6ca43f5aa540ab5350a6d47c52d5b0a953a9a954ecd49620da4401b5552456a33335a44495b57852d37152b4b4a8b5e8b453e36a9,
  0x5e852e40392d524c95319a95444b4a578ba5370b5549856a5b0a6d3c8a5b4ec52b2df52b40c69355c7493536aa460ad559455a3ab4b64b4a575e852b400d26524e93334d92444daa55c6b53709ad4984ae5cca563c7a4d508d252fbd25428d52540da9350b6a46056d5944ad38d49b4d0a4b604d25401b25524b523336d2444ada55c55b3549574984975cc64b3c764b4ec6a52faea54286d2540ad5336ab647c936594c973a8c964d0d4a604ea5402da55245aa31956a444aad57852e37152d498a955e8d4a3e3b4a4ecb656205aa43f55a540a6d336a5b46052b5b0a933a96934d07495e8b55400ad55244da3194b6428a5757852738cd264b4e925ccec93e2da94ec6b56202b64234ae55ca56353a4d47cd255b0d923c5d524d0da95e85b53e656d5244ad31949b444a4b,
  0x3375aa460ab55944b638f4ad4b4a55604d26403d25524d94319b54444d6a55c96d35495b47c4ab5cca4d3c9a8b4ecb252df6a9428754540b5a3392b644495b5944ab38f4974b464b5e8725402ea55246d43195b4428ab657895637192e498c965cce4a3e3d4a4ecda52dcb6940c56a540aad33725d46092d594c953aba954d0b4a5e8ba53e8b5552456a31955a428a5b55c52b37152b4986955cc74a3c96ca4ecad52deab540c4b6524a57352a5647cd26594e9338cd954d05aa5e8ad53e69ad5084ae3194ad444a4d578d25371d254b4d925ccdaa3c8b6a4d096d6204ad4234ab540a4b337a4b47cb255b0b523ab6d44b4b5a5e855b3e695750849b2ff49744464b5786a5370ea54986d25ccad63c8ab64ec936604c97440c9655ce4a353d4a460da55b05b23ab56a4b4aad,
  0x3ace934ec6a92e0daa3f05b55242b63394ae460a4e594d2638fd254d0d925e8da93e6da94ec5ad2fe55d4282ad55ca4d355a4b498b255ccd523c9b524d0b692dead63f055b52429b31d49746064b594aa538f6a54b46d25e8ad53e8ab55085562ff52e428a9757854a371d4a47cea55cc6ca3c95aa4d0ab52c4a6d40c52e540a95337a95460d495b0da438fb554b456a5ccaad3e895b50852b2ff51b428a8b578b493716a9498b545b0b6a3c92d64d095b2c2a573f051754068b352e4a460ea95946d438f5b54b42b65cc9573e6a4e524d1631bd15444d4a55cda9370b6947c56d5b02ad3ad2ad4ec92d2e1a2b40cb15540b4a353b52460b5559456a37355b4b429b5e892b3e752b508a9531ae954446ca55cad5354ab54985365b0a573aca574ec52a2fbd2a40ce955406aa,
  0x40c49755ca4b35764b47c6a55b07523c96b24d0ad62c4ab63f0936524c97338c96460d4a578ea538eda54b45aa5ccab53ccaad50892e2ff92d428a9555cd4a371b4a47cb655b056a3af55a4d0a5d2c4a5b3f052b524a9333969346074a578b55374ad54b44da5cca5b3cca574ec52731ad26428e9355c6c9354daa47c6b55b04b63af4ae4d0a562e1a4d40cd25540d92337b52460daa5785ad37256d4984ad5e8a4d3e9a4b508d252ffaa5444b5255cb69356ada46055b5b049b3ad4974d0a4b2c564b40c6a55407523396b2444ab559455a38f936498c975cc64b402d4a508ea52fcda54285aa55cab5356a6d47c52e5b0a953c9a954ecd4a2e1b4a3f0b5554056a33955a444a5d57852d38f52b4b4a935e8b493eb749508b552fe6d54282da540a5b356a5747c5275b0693,
  0x49856a5ccaad3cf25b4ec92b2e552b428a9555c74a3576ca460ad55b055a3af4b64b4a572aaa5740c526524e9331cd954445aa578ab5374aad4984ae5cca563e9a4d508d262ffd25428d9455cdaa356b6a46096d5944ad3af4ab4d0a4b2c5a4b3f0b25540b523396d4444b5a55c95b37495749849b5cca4b3cf64b5086a52feea54286d4540ad63572b647c936594c973aec964ece4a2e1d4a3f0da55245b233956a444aad57892e37392d4b4c952a7a953d4b4a4ecb652feb5542855a540a6d33aa5b47c52b5b0a953ad6954d074a2e16aa3f0ad552455a31d4b6444a5757852b38ed26498e932a6d933d45aa4ecab52e296d4284ae55ca56357a4d47cd255cce923cbd524d0daa2c4b6a3f096d5244ad31d49b444a4b594d2538fb254b4b522a36d43d4ada4ec95b2e2957,
  0x508da531cb5544456a55ca6d358a5d49852d28d52b3b8a8b4ecb493016a940cb5554035a33d2da46095b59452b3935174b468b2e2e523f0ea95246d43015b54442b655c957374a4e498d162a9d153d4d524ecda92e2d6940c56d5402ad33b2ad460a2d5b0d153afb154d0b522c5b523f0b5950856b30255b42829b57892b37562b498a9528ae953d46ca4ecad52e4ab540c536540a5733aa5747c52a594e953aee954d06aa2c55aa3d4ab55244b631d4ae444a55578d46391d254b4d9428bb553b856a4ec96d2e295b40c4ab540a4d357a8b47cb255b0b543b1ad44d0b5a2c72b63d495b50849b31d49744468b578725374ea94b46d42875b53b82b64d095730092e428c9655ce4a357d4a47cda55b05b439356d4b42ad2c725d3f092d524c9531da95460b4a578ba5374b55,
  0x594d263afd254d0d922c7b523d4daa5085ad30296d4284ad55ca4d375a4b498d2528daa53b8b524ecb6a2e4ada3f055b52449b33d497460a4b594b253976a54d06d22c76b23d4ab64ec55b31e936428c9755c64b374d4a498ea528cda53b85aa4d0ab52e4a6d40c52e540c9633ba9547cd4a594da5394b554b456a2c755a3d4a5d50852d30352b444a93578b4937574a47cb5528aad53b84da4d0a5b2c8a5740c52754069333ae934606a95946d53965b54b42b62ab4ae3f0a4e524d2631dd25444d92578da9376d6a47c5ad27055d3b84ad4eca4d2e3a4b40cb2555cd52357b52460b6957856b39655b4b449b2ab4973d464b524aa531d6a54446d255cad5374ab549855628d52e39cc9750864a2ffd4a40cea55406aa3575aa460ab559453639352e4d0a952c7a953f0d4a,
  0x2c92b63f093752449733cc96460e4a26fd4a380da54b45b428f56d3d42ad50892e30392d428c95578d4a377b4a47cb65270ad53b855a4d0a6d2c925b3f052b540a9533d69546074a2516aa380ad54b455a2ad4b63b8a5750852b31ed26428e9355c6ca3775aa47cab527096d39c4ae4eca562e5a4d40cd26540e92357d54460daa5785b537896d4b44ad2ab49b3d4a4b508d2531fb25444b5255cb6a35aada47c95b27095739c4974d0a4b2e564b40c6a554075233d6b4460ab657895b3789374984972c6c963f0d4a508ea5300da54445aa55cab535aaad47c92e28d92d3b8a954ecd4a2e5b4a40cb6554056a33d55a444a5d59452d39752b4b4a952ab6953f074a508b55302ad54284da55ca5b358a5747c52728cd263b8e934ec6aa2e4daa3f06b55404b633d4ae460a56,
  0x35f6d247cad5272ab53805374b42572caa573f054b5246a5320e954606aa25356a364ab54985362ad4ae3d4a55508d46303d4a428d9555c5aa35b56a460a6d27295b39c4ab4d0a8d2c9a8b40cb29540b54321ad544435a2512ba36495b4984ab2915173d468b508725302ea940c6d555c2da35d2b646095727292e3b8d164ece4a2e5d4a3f0da95405b432156d4442ad57892e39592d4b4c952aba953d4b4a508ba5302b5540c55b5402ad35b25b47c92b27152b39ca954ecb4a2e56ca3f0ad552455a33d4b6444a5757852b39752a4b4e952aad953d45aa4ecab5302aad4284ae55ca5635ba55498d2628dd253b8d544d0daa2e556a3f096d5244ad3214ab460a4d255a4b380b254b4b542abad53d42da4ec95b2e695742849b55ca4b35964b47c6a528cea53b86d44d0ad6,
  0x3b8a95508b493056ca40cb5554056a35f4da460a5b256a573805274d06932c8e933f06a9508ad53229b54444b62394ae364a4e4b4d262add253d4d924ecda9302d6a40c5ad5404ae33f4ad47ca4d273a4b39cd254d0d522e7b523f0b6a50856d30655b44449b239497364a4b498aa52ad6a53d46d24ecad52e8ab640c55754049733ec9746064b28ed4a39cea54d06b22c95aa3f0ab552453632152e444a96255a95380d4a498da528eb553d456a4eca6d2e6a5d40c52d55ca9535ba9347cb492736a939cb554d055a2cb4ba3d4a5b52452b32151744468b236e933806a94986d52905b53b82b64eca57302a4e428d1655ce8a377d5247cda9270d6a38056d4d02ae2c94ad3f0a4d524d1533db15460b52253b52364b5949856b29055b3b849b4eca2b30362b428aa555cb52,
  0x4284ad23b49b364a4d498d25291b253d4b544ecb6a2e8ada3f095b5404ab343497460a4b25764b39c6a54d07542cb6b43d4ab650895b30693742849723ac96380d4a498ea5290da53b85ac4ecab62e926d40c92e540c9635bc9547cd4a273b4a380b654d056a2cb55a3d4a5d50892d32392b444a9523969536474a498b55290ad53b84da4d0a5b2e8a5740c52b540a93344e9347c6ca2735aa380ab54b44b62cb4ae3f0a56524d26323d26460d92255b54364daa47c5ad29095d3b84ad4eca4d2e9a4b428d2555cd5235db52460b6a272ada38095b4b449b2af4973f0a4b524b253216a54446d22535b4364ab647c55b2909363b8c974ec64b302d4a40cea555c6d235f5aa460ab5256a6d39c92e4d0c962c9a953f0d4a524da5322b5544456a23955a364a5d49852d29152b,
  0x4985b52ae56d3d42ae508a2e307a2d444d1523ba95364b5247cda9292b5939c55b4d02ad2cd25b40ca2b20152b32ca95460b4a2736ca380ad549855b2ae5363d4a5750852b30752b42869523ad953645aa47cab5274aad3b84ae4d0a572e8a5540cd2a219d2a32cd554605aa25756a38096d4b44ae2af4ab3d4a4d524d25323b29444b5421dad53642da47c95b27695b39c49b4eca4b2e964b40c6a51fcea932c6d54602d62592b63649574b44972cac963f0e4a508ea5322da94445b421d56d3482ae49892e29192d3b8c954ecd4a305b4a40cb651faad531055b46026d25925b38092b4b4a952cb6953f074a508b55306ad544455a23b4b6348a5747c52b2ad52a3b8e954ec6ca2e95aa40cab55404b63434ae444a57272a4d39cd264d0e922cbd543f0daa5089b530696d,
  0x200d4a32cea54606b22595aa364ab54b45362af92e3d4c96508d4a323d4a428da521eb5534856a47ca6d276a5d39c52d4d0a952e9a9540cb4a2016aa310ad546055a2594ba364a5b49852b2af5273d46935087493096aa4286d521e9b53484b6460a57292a4e3b8d264d0e932e8d5240cda91fcd6a31056d4444ae2594ad380a4d4b4d252afb253f0b52508da9308b5a40c56d21e55b34849b47ca4b27764b3b8aa54ecb522e96d23f0ad552455b32853744449723cc9738054b4b46a52aeda53d46aa508ab5308ab542853621f52e364a96498d4a291d4a39cd954ec5aa2eb56a3f0a6d1dea5d32c52d460a95259a93380b494b4b552b0ad53d435a4ec95d308a5b42852b21f51734868b4987292916a939c6d54d02da2e92b63f0a57200a2e32cd1647ce4a273d52380da9,
  0x25aa5739c52b4d0a952cce953f06ca2015aa310ab54444b623d4ae364a574b45262afd263b8d935085aa30b5aa40c9ad20295d3484ad47ca4d277a4d39cd254ecd522ebb543f0b6a1e52da31095b44449b23d49b364a4b4b4b252b16a53d46d44ecada30cab640c95b20493732c49747c64b292d4a39cea54d06d22eb5ac3f0ab61e526d31092e460c96259c95380d4a498da52b0b553d456a4ecaad2eca5d42892d21f52b348a9547cb4a2936ca39cb554d055a2cf4da3f0a5b1e4a5731052b444693258e933806aa498ad52949b53d44b64eca57308a56428d2623bd26364d9247cdaa276d6a39c96d4d04ae2cf4ad3f0a4d201a4b32cd25460d52259b52380b6a49856d29495b3b849b508a4b309a4b428b2521f6a53646d247cada276ab63809574d04972cd4973f064b,
  0x2ef2da40c95d20495b32c51b460a8b27764b39c6a94d0b542b56b53f02da1e72b62f4957428517258d16380e4a498ea9294da93b85b54ec2b62ef2ae40c92e221a2d348c9547cd4a277b5239cb694b456d2b255b3d42ad1e725b31092b444a9523da95380b4a498b55294ad539c55b4ec25b2ef25740c52b20552b34869547c6ca2775aa380ab54d04b62cf4ae3d4a571e6a4e32cd26444e9523cd553645aa498ab529496d3b84ae4eca55309a4d428d25221b29348b5447cd6a2792da38095b4b44ab2cf49b3f0a4b1e564b3106a546075423d6b53642b647c95b2949373b84974ec64b30cd4a428ea521eda93485ac460ab62772ae39c92e4d0c962cfc9540cd4a201b4a310b6544456c23d55b36425d49892d29592b3d4a95508b4a30b74a40cb5521ead534855a460a5b,
  0x364d52498daa296b5a39c56d4d04ad2ef49b40ca4b205a4b32caa547cb522796d2380ada49855b2b49373d44971cb4972f454b4446a523cda53646aa47cab6294ab63b85364d0c972f0c96428d4a21fd4a32cda54605aa27756a380a6d4b452e2b352d3f0a951e7a95310b4a428b5523ead536455a47ca5d278a5b3b852b1ad5272d869340c7292216aa32cad54602da25d4b6380a574b45172ced163d4e93202d52310daa4285b522256d3642ae498a4e295a2d3b8d151c7aa52f4b5240cd69204b5a32c55d4602ad25d45b380a2b4d0b152cfaa53f0b521e56d2310ad642855b22253734845749862b29552b3b86a51aada52f45aa40cab5204aad32c4ae460a57276a5639cd2a4b4e952ced553f05aa1e556a2f496d4444ae23f4ad364a4d498d292b1b293b8b554ec56a,
  0x3d4c961e7c95310d4a428da5222b6536456a47caad27b25d39c92d1ad92b2d8a9540cb4a2056ca32cb5546055a25d4da364a5b4b452b2b552b3d4a951cae953106aa428ad5222ab53484b647ca57278a573b85261add262d8d9540c5aa20556a31096d4604ae25d4ae380a4d4b4d262cfd253f0d521e7b542f4b6a42896d22295b34849b47ca4b295a4b3b8b251ad6a52d86d440cada204ab631095744449725d49738064b4b46a52b4ea53f06b21e75ac2f4ab640c93723e92e364c96498d4a297d4a3b8da51aab552d856a3f0a6d20525d32c92d460a9525da9539cb4a4b4b552b4ad53d455a1e94ba2f4a5b42852b22352b36469349874a2956aa39cad51aa9b52d84b63f0a571e8a4f348526460e93276d52380daa4b46b52b656d3d44ae1cb4ad310a4d444d2523fb25,
  0x44453625d4ae364a5749852b2b8d2a3d4e951cad552f45aa40cab522296d3484ae47ca5627ba4d3b8d261adb2a2bcb553f056a2072da31095d4444ad24149b380a4b4b4b252b76a93b8ad51cc6b52f42ba40c95b20693734849747c64b27ad4b39c6a91acda92bc5b53f02b61e92ae32c92e460c9625dc95380d4a4b4da52b8b693b856d1ae55d2f425d42892d22392b348a95498b4a297b4a39cb55190ad52bc55b3f025b1eb25731052b460a9525d6953806ca498ad52b8ab53d44b61cd4ae2d8a5742852b23ed26348d9547c5aa29756a39c9ad19295d2bc4ae40ca4d205a4d32cd25460d5425db5538036a49896d29895d3d449d1cd49b2f4a4b428b2523f6a53646d447cada27b2b639c95b1929372bc4973f064b220d4a32cea54606d42415ad3802b64989372b492e,
  0x1936aa2bcad53f04da1eb4b62f4a5744452725cd26364e93156d532a05aa3b85b51b056d2d84ae428a4e225a4d348d2647cd52299b5239cd6a192b5a2a055d3f04ad1eb49b310a4b444d2525daa5380b521736d2284ada3b855b1b09372d849740ca4b22354b3486a547c6d227d5aa39cab6192aae2bc52e3d4c97204a9632cd4a444ea5242d553805aa498ab529ca6d3b852e1cd52d2f4a95428d4a223b2a348b5547c56a27b4da38095d192a5b2bc52b3f0a8b1e969332c6a9444b55240ab53642da49895b29ca573b85171ccd162f4e534286a9222daa32c5b547c2b627d2ae39ca2e193a2d2d8d1540cd52207b52310d6944456d24255d3642ad498a2d2b5a2b3d4a951cda952f4b52428b59224ad632c55b46025b27b25739c52b19352b2bc69540c6ca2055aa310ab5,
  0x209a4b348b2547cb5427f6d4380ada1952b62a095b3d449b1cf49731064b4446a5240ea53646b415956d2842b639c9371b092e2f4c96428d4a225d4a32cda547c5ac27f56c380a6d17725d2bc92d3f0c951eba95310b4a444b65242ad536455a47ca5d29b25b3b852b1b152b2d869542874a2256aa32cad54604da27d4b6380a57176a572a05273f06931e8d953105aa428ab524296d3644ae47ca5729ca4d3d4d261cdb252f4d5240cdaa224b5a32c96d4604ad25f49b39ca4b193a4b2bcaa53f0b522076d4310ada42855b22693736449b15949728464b3b86a51ccda52f46b440cab6208ab632c93746049727ac9639cd4a1afd4a2bcda53f05aa1eb56a310a6d44492e24392d364a95173a952a0b4a3b8b551b0ad52f455a40ca5d208a5b32c52b47ca9527d69339c74a,
  0x26825d3b8a2d1b3a2b2d8a9540cd52225b5232cb5944456d24655b38025b1794572a052b3d4a951eb6953106ca428ad5228ab63484b715a4ae268a5739c52b1ccd2a2d8d9540c5aa20956a32caad4604ae2634ae380a56193a4d2bcd2a3d4d551ceb5531056a42896d22695d3484ad15b49b284a4b3b8b251b16a92d8ad540c2da2092ba31095b46049b26149738064b176d4b2bc6a93d46d51ce5b52f42b642895724292e364c9615bc952a0d4a3b8da91b0b692bc56d40c2ae20925d32c92d460c9527da9539cb4a1936ca2a0b553d455b1d04db2f425b42892b24352b364a951596952846aa3b8ad51b0ab52d84b63f0a57208a5732c52b460695264d9539c5aa19356a2a096d3d44ae1eb4ae310a4e444d26243d26380d54157b5528436a39c96d1b295d2d849b40ca4d,
  0x2f45aa428ab5228a6d34892e13f92d284a953b8d4a1b3b4a2bcb5540c56a20b4da310a5d44452d26352b380a951796952a06aa3d4b551d0ab52f44da40ca5b228a5734852715ad26268e933b86aa1b0daa2bc5b53f04b620b4ae310a4f11aa4d24cd2639cd52195b522a0d6a3b856d1d055d2f44ad428a4d227a4b364b25159aa5284b5239cb5a1b2ada2bc55b3f049b1ed45732ca4b460aa52636a53806d21955b22a0ab63b85371d08ae2f4c5742854b242d4a348ea515ad552845aa39cab5196a6d2d84ae40ca56209a9532cd4a460d95264b5538056a1794da2a0a5d3d44ad1d14ab2f4a93444b492436aa348ad513c6b52842ba39c95b196a572bc51740c68b208e5332c6a94446d52645b53802b61792ae2a0a2e3f0d161ebc95310d52428da9244b6a34856d13e55d,
  0x364695178d952a05aa3b8ab51b496d2f44ae40ca57228a4e348d2615bb26268d5539c5aa19736a2bc96d3f04ae1ef49d310a4d121a4b24caa5380b5415d6d52a02da3b895d1b493b2d849b428a4b22964b3486a513eda52846b439cab61972b62a09373f049720ac9632cd4a121d4a24cda53805ac15d56d28426e3d492e1d192d2f4c95428d4a245b4a348b6513ead526855a39ca5d19725b2bc52b3f0a9520969532c74a11d6aa230ad53804da1794b6284a573b852b1eb5262f4e934286aa2295aa348ab513e96d2684ae380a571b2a4d2d8d2640cd9220bb5432cd6a4445ad24895d3644ae17949d2a0a4d3d4d251d1aa5310b52428b6a228ada32c95b14093726849739ca4b19764b2d86a540c6d220b5b4310ab644495b248937364497178c962bcd4a3d4ea51d0d65,
  0x3d449b1ef51731064b104d532306a93646d515c5b52842b639c9571d092e2f4d1640ce4b22cd52348da913eb6a24c56d3802ae19925d2bc92d3f0c951efa9532cb5211fad2230b5a34855d15e55b28425b3b892b1b552b2f4a95428b4a22b6aa32cad5140ab624c4b738025717aa572bc52b3f06951eed953105aa12156a23096d3644ae15f4ae2a0a563d4d261d1d2a2d8d554285aa22b56a32c96d12495d2684ad39ca4d197a4b2bcb2940cb541efad53102da1012ba23095b36449b15d49728464b3d46a51d16a92d86b540c2ba2292b632c93714092e268c963b8e4a1b3d4a2bcda93f05b41ef56d3102ae10725d23092d380c95179a952a0b4a3b8b651d0ad92d855b40c25d20d25b34892b14152b268a9539cb4a1b36aa2bcad53f055a1ef4b6310a57104a5723052b,
  0x124ada24c95b38049b17d4972a0a4b3f0aa51f16a53106d21075b4230ab634893b1429372684973b864b1d2d4a2d8ea50c6d652145ac32cab6124a6d24c92e39cc96199a952bcd4a3d4da51f0b5531056a1074da214a5d36452d15f52b284a953b8b4a1d16aa2d8ad540c55a20f4ba32ca5b124a5724c52b380693196e532bc6aa3d4ad51d45b53102b61074ae230a2e364d1617bd262a0d523b8daa1b6b6a2d856d40c2ae20f49d32ca2d141a2b268aa539cd52197b522bcb5a3d456d1d255b2f449b107457230a2b364aa515d6a52a06d23b8ad61b4ab62bc53740c25720cc5732c52b13ed4a268da539c5aa19956a2a0ab53f04b61ef4ae310a56107a5524cd2a364d9515eb5528456a3b896d1b695d2d84ad40ca4d229a55348b291416aa24cad539c2da1992ba2a095b,
  0x1b7b4a2d8b693f056d1f455d31025d12725b24c92b380a9517da952bcb4a3d4b551d4ad52d84db0ec4b721425734852b14352b2846953b86aa1b75aa2bcab50c696d1f84ae310a57124a4e268d26380d9517cd552a056a3d49b51d496d2f44ae0eb49d230a4d364d2515faa5284b543b8b6a1b72da2bc95d3f049d20f49b32ca4b12564b24c6a539c6d41995b42a0ab63b895b1d49372f4497106c96230d4a364ea515ed692845ac39cab61b726e2d892e0c792d1f8a95348d4a141b4a24cb5538056a17d55b2a025d3d492d1d352b310a951076952306ca348b5515eab52844da39ca5b198a572d852b40ca9320f69532c6aa1415aa24c9b53804b617d4ae2a0a573d45271eed262f4d93122b54230d6a34856d14295d2844ae3b8a4d1b5a4d2d8d250e7aa5214b5432cb6a,
  0x214a56364d2a15fd2a268d5539c5aa1b756a2bc96d0b295d1dc4ad32ca55127a5524cb2a364b5517cad52a02da3b895d1b895b2f449b0ed49721464b3486a915f6aa2686b539c2ba19d2b62bc9370ce92e1f8c96310e4b142d5224cda93645b516256d2a02ae3d492e1d592d2f4c95109a95230b52348b69144ada26855d39c25d19b25b2bc92b0cd52b1f8a9532cb4a1256aa24cad636455b1604b72842573d452b1d552b2f46950ead952305aa348ab514296d2684ae39ca571b6a562d8d2a0cdd2a1f8d5532c5aa12736a23096d3804ae17d4ad2a0a4d3d4d261f1b292f4b550eaad52142da34895d14295b26849b39ca4b1b564b2d86a90c95a91dc6b532c2ba1252b6230937364497198c962bcd4a3d4ea51d4da92f45b50ea56d2142ae34892e15f92d284c953b8d4a,
  0x2844b63b8a571baa572d85270ecd26214d533485aa14556a24c96d39c4ae19b4ae2bca4e0b3a4d1f8d2532cd52127b54230b6a36456d16295d28449d3b8a4d1d5a4b2f4aa50ed6a52146d4348ada144ab624c93b38049b19b4972bc64b0ced4a1dcda532c6b212756c230ab634893717e92e2a0c9608fa951c0d4a2f4da50ecb5521456a32ca6d144a5d26852d39ca9519ba952d8b4a0cd6aa1dcad531055a1274ba230a5b36452b16152b2a06933d472a1d76aa2d8ad50ec9b52144b632ca57128a4f28451639ce931b6d522bcdaa0ccb6a1dc56d3102ae10b49e24ca2e380d1617daa52a0b523d4d6a1d8b5a2d856d0d055b21445b348a2b14352b268aa53b8b521b96d22bcada0b0ab61dc4b731045710b25723052b38069517eda52a05aa3b8ab51d6a762f44b60ed4ae,
  0x2f4ad510a5b52302ba34895b146937284497094c961a4d4b2d86a90ecda91f85b532c2b612926e26892e39cc9619bc952bcd4a0cfb4a1dcb692f456d0ee55d23025d36492d16392b284a950936951c06ca2d8b550d0ab51f84db32c25b12925724c52b39ca9519d6952bc6aa0b35aa1dcab53104b610b4ae214a5736452717ed26284d95072b551c056a2d896d0d295d1f84ae348a4e145a4d268d2639cd541b9b542bcb6a0b32da1c095d31049d10b49b230a4b364aa517d6a52a06d43b8ada1bb2ba2d895b0d09371f849732c64b160d4a268ea539c6b419d5ac2bcab60b326e1dc92e310c96127a9524cd4a364da5162b552a056c3b8a6d1bb25d2d892d0ed92b214a95348b4a1456ca268ad539c55a19d4ba2a0a5b0b2a571dc52b310a9510969524c6aa364ad51629b5,
  0x380c9519daa52bcb520b36d41c0ada2f455b0f04bb21445b348a2b16352b2846a5078da51a45aa2d8ab60d2a761f84b6310a57144a56268d2a380e95182d552bc5aa0b356a1c096d2f44ae10d4ad230a55364d2a163b2a284b55076ad51a42da2bc95d0d295b1f849b32ca4d1296532686a9380ad51826b52a02ba0b52b61c09372f449710cc96230e533646a9162daa2685b507256d1a42ae2d892e0d392d214c96348d4a145b5224cb6938056d18255d2a025d09925b1dc92b310a9510ba95230b52364b59162ad626855b39c25b1bb2572d852b0d152b1f86953486ca1455aa24cab53644b719c4ae2a0a570b2a561dcd2a310d9510ad5523056a3489b516296d2844ae0734ad1a4a4d2f4d2a0edaaa1f8b5532c56a1452da24c95d3804ad18149b2bca4b0b364b1dc6a9,
  0x0b725d1f892d32ca95129a9524cb4a380b55184ad52a055a07d4bb1c025b2f452b0ef52b21469536474a1656aa268ad505c9b51a44b62bca570b6a571dc52732c69312ad5524c5aa364ab518296d2a04ae0994ae1c0a4e310d2610bb25230b54348d6a164b5a26896d05e95d18849d2d8a4d0d3a4b1f8aa532cb521456d424cada36455b16493b2a049b0994971c054b2f46a510cda52305b4348ab6148ab626893707a92e1a4c962d8d4a0efd4a1f8da532c5aa12b56c24ca6d38092e18192d2a0a950b5a951dcb4a2f4b550f0ad52304da348a5d148a5b26852b07952b1a46952d86aa0d16aa1f8ab532c2da12b4b6230a5738052b1815272a0653096d551dc5aa2f45b50f056d2144ae348a37162a2e284d26079aa51c0b522d8d6a0d2ada1dc55d32c2ad12945d24ca2d,
  0x14b56a26897505e96d1884ae2bca560d3a551f8d2a310d5510eb5524c36a36496d16895d2844ad09949b1c0a4b2f4b250f16a9214ad53482da1492ba24c95b0609371884972bc64b0b6d4b1f86a93106d510e5b52302b636493718292e2a0c96099c961dcd4a2f4da90f0b691f856d3482ae14925d26892d06192b1a4a952d8b4a0d36ca1dcad531055b10e4db23025b36492b18352b2a0a950996951c06aa2f4ad50f09b52144b632ca57148a5726852b07ad2a188d552d85aa0d356a1dc96d3104ae12b4ae24ca4e03ba4d16cd262a0d55098b551c036a2d896d0f095d21449d348a4d149a4b284aa50796a91a46d42bcada0d32ba1dc95b31049b10f49724c64b3806a5184da92a06b409956d1c02b62d89370f092e230c96364d4a163d4a268da507ab5918856d2bc26e,
  0x1a4e532f46aa0f35aa1f85b532c2b614b2ae24ca4f060a2e188d262d8d520d3b521dcd6a2f456d10e55d2302ae01f45d150a2d2a0a95099aa51c0b522d8b5a0f0ada1f855b32c25d12d45b26892b06152b1886a52bc6d20d55b41dcab62f44bb0f24b7230257040a5616cd2a284e9509ad551c056a2d8ab50d696d2144ae348a56149a55268d2a07db2a188b552bc56a0b92da1dc95d3104ad10f4ab230a4d03b65516c6aa284ad507c6b51c02ba2d895b0d69371f849734864b148d532686a905edaa1885b52bc2b60b92ae1c092f31049712ac9624cd5203db5216cb6a28456d07e55d1a425d2f492e0f192d214a95348b4a165b52268b5a05eada16c4db2bc25d0b72571dc52b310a9512b69524c6ca364ad5168ab62844bb09a4ae1a4a572d852b10cd2a214d953485aa]

/-- `chinese_calendar_data[k]` for `k < 30004`.  /repo/chinese.h:3. -/
def chineseByte (k : Nat) : Nat :=
  if k < 4 then chineseHeader.getD k 0
  else (chineseRows.getD ((k - 4) / 300) 0 >>> (8 * ((k - 4) % 300))) % 256

end Verif.Date
