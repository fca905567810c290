/-
The texts of the Maven project file, java/java_pom.go.
-/
namespace Sadl

/-- java/java_pom.go:55-55 `jerseyVersion`. -/
def javaPomVersions : String :=
  "    <jersey.version>2.28</jersey.version>                                                                          "

/-- java/java_pom.go:57-68 `jerseyDependsMgt`. -/
def javaPomManagement : String :=
  "  <dependencyManagement>\n" ++
  "    <dependencies>\n" ++
  "      <dependency>\n" ++
  "        <groupId>org.glassfish.jersey</groupId>\n" ++
  "        <artifactId>jersey-bom</artifactId>\n" ++
  "        <version>${jersey.version}</version>\n" ++
  "        <type>pom</type>\n" ++
  "        <scope>import</scope>\n" ++
  "      </dependency>\n" ++
  "    </dependencies>\n" ++
  "  </dependencyManagement>\n"

/-- java/java_pom.go:70-97 `jerseyDepends`. -/
def javaPomDepends : String :=
  "    <dependency>\n" ++
  "      <groupId>org.glassfish.jersey.containers</groupId>\n" ++
  "      <artifactId>jersey-container-jetty-http</artifactId>\n" ++
  "    </dependency>\n" ++
  "    <dependency>\n" ++
  "      <groupId>org.glassfish.jersey.inject</groupId>\n" ++
  "      <artifactId>jersey-hk2</artifactId>\n" ++
  "    </dependency>\n" ++
  "    <dependency>\n" ++
  "      <groupId>org.glassfish.jersey.media</groupId>\n" ++
  "      <artifactId>jersey-media-json-jackson</artifactId>\n" ++
  "    </dependency>\n" ++
  "    <dependency>\n" ++
  "      <groupId>org.glassfish.jersey.core</groupId>\n" ++
  "      <artifactId>jersey-common</artifactId>\n" ++
  "    </dependency>\n" ++
  "<!-- the following is needed to compile with java11 -->\n" ++
  "    <dependency>\n" ++
  "      <groupId>javax.activation</groupId>\n" ++
  "      <artifactId>activation</artifactId>\n" ++
  "      <version>1.1</version>\n" ++
  "    </dependency>\n" ++
  "    <dependency>\n" ++
  "      <groupId>javax.xml.bind</groupId>\n" ++
  "      <artifactId>jaxb-api</artifactId>\n" ++
  "      <version>2.3.0</version>\n" ++
  "    </dependency>\n"

/-- java/java_pom.go:99-105 `lombokDepends`. -/
def javaPomLombok : String :=
  "      <dependency>\n" ++
  "        <groupId>org.projectlombok</groupId>\n" ++
  "        <artifactId>lombok</artifactId>\n" ++
  "        <version>1.18.6</version>\n" ++
  "        <scope>provided</scope>\n" ++
  "      </dependency>\n"

/-- java/java_pom.go:10-37 `CreatePom` and 107-159 `pomTemplate`: the text of the project file. -/
def javaPomText (domain name : String) (lombok : Bool) : String :=
  "<project xmlns=\"http://maven.apache.org/POM/4.0.0\" xmlns:xsi=\"http://www.w3.org/2001/XMLSchema-instance\"\n" ++
  "         xsi:schemaLocation=\"http://maven.apache.org/POM/4.0.0 http://maven.apache.org/maven-v4_0_0.xsd\">\n" ++
  "\n" ++
  "  <modelVersion>4.0.0</modelVersion>\n" ++
  "  \n" ++
  "  <groupId>" ++
  domain ++
  "</groupId>\n" ++
  "  <artifactId>" ++
  name ++
  "</artifactId>\n" ++
  "  <packaging>jar</packaging>\n" ++
  "  <version>1.0-SNAPSHOT</version>\n" ++
  "  <name>" ++
  name ++
  "</name>\n" ++
  "\n" ++
  javaPomManagement ++
  "\n" ++
  "  <dependencies>\n" ++
  (javaPomDepends ++ if lombok then javaPomLombok else "") ++
  "\n" ++
  "  </dependencies>\n" ++
  "  \n" ++
  "  <build>\n" ++
  "    <plugins>\n" ++
  "      <plugin>\n" ++
  "        <groupId>org.apache.maven.plugins</groupId>\n" ++
  "        <artifactId>maven-compiler-plugin</artifactId>\n" ++
  "        <version>2.5.1</version>\n" ++
  "        <inherited>true</inherited>\n" ++
  "        <configuration>\n" ++
  "          <source>1.8</source>\n" ++
  "          <target>1.8</target>\n" ++
  "        </configuration>\n" ++
  "      </plugin>\n" ++
  "      <plugin>\n" ++
  "        <groupId>org.codehaus.mojo</groupId>\n" ++
  "        <artifactId>exec-maven-plugin</artifactId>\n" ++
  "        <version>1.2.1</version>\n" ++
  "        <executions>\n" ++
  "          <execution>\n" ++
  "            <goals>\n" ++
  "              <goal>java</goal>\n" ++
  "            </goals>\n" ++
  "          </execution>\n" ++
  "        </executions>\n" ++
  "        <configuration>\n" ++
  "          <mainClass>${my.mainClass}</mainClass>\n" ++
  "        </configuration>\n" ++
  "      </plugin>\n" ++
  "    </plugins>\n" ++
  "  </build>\n" ++
  "  \n" ++
  "  <properties>\n" ++
  "    <my.mainClass>Main</my.mainClass>\n" ++
  "    <project.build.sourceEncoding>UTF-8</project.build.sourceEncoding>\n" ++
  javaPomVersions ++
  "\n" ++
  "  </properties>\n" ++
  "</project>\n"

end Sadl
